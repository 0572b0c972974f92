import Verif.Proofs.TypingDecls2
import Verif.Proofs.TypingDecls3
import Verif.Proofs.TypingDecls4
/-!
# The generated files obey the rules about types, for every template
-/

namespace Gowrap.Tmpl

open Gowrap Go Spec

set_option maxRecDepth 100000
set_option linter.unusedVariables false

/-- No parameter or result has a name of the generated method. -/
theorem unused_all {l : Locals} {m : Method} (hg : GoMethod m) (h : FreshMethod l m) (hi : ∀ p ∈ m.params, p.name ∉ l.inner) :
    Unused ([g!"nil", g!"true", g!"false"] ++ (l.names ++ l.inner)) (allNames m) := by
  intro x hx hm
  obtain ⟨p, hp, rfl⟩ := mem_allNames hm
  rcases List.mem_append.mp hx with hx | hx
  · exact hg.plain p hp hx
  rcases List.mem_append.mp hx with hx | hx
  · exact h.names p hp (List.mem_cons_of_mem _ hx)
  · rcases List.mem_append.mp hp with hp | hp
    · exact hi p hp hx
    · exact h.results p hp hx

/-- What the bodies refer to. -/
theorem Knows.method {Γ : Ctx} {D : Typ} {m : Method} {l : Locals} {k : List (Str × Entity)} (h : Knows Γ k) (hg : GoMethod m) (hf : FreshMethod l m)
    (hk : ∀ e ∈ k, e.1 ∈ [g!"nil", g!"true", g!"false"] ++ l.names ∧ e.1 ≠ g!"_d") : Knows (bodyCtx Γ D m) k :=
  h.body fun e he => not_hidden hg hf (hk e he).1 (hk e he).2

theorem Has.sub {F : FileTypes} {t : Typ} {l k : List (Str × Typ)} (h : Has F t l) (hs : ∀ e ∈ k, e ∈ l) : Has F t k := fun e he => h e (hs e he)

/-- The fields of the configuration that templates/timeout declares. -/
theorem config_fields {u : Uni} {d : Inputs} (h : GoInputs u d) : flatFields (d.sorted.flatMap (tmTimeout.configFields u d)) =
    (d.sorted.filter (·.acceptsContext)).map fun m => .named [m.name ++ g!"Timeout"] (.qual g!"time" g!"Duration") := by
  have : ∀ ms : List Method, (∀ m ∈ ms, m ∈ d.sorted) → flatFields (ms.flatMap (tmTimeout.configFields u d)) =
      (ms.filter (·.acceptsContext)).map fun m => .named [m.name ++ g!"Timeout"] (.qual g!"time" g!"Duration") := by
    intro ms
    induction ms with
    | nil => intro _; simp [flatFields]
    | cons m ms ih =>
      intro hm
      obtain ⟨e, he, rfl⟩ := mem_sorted.mp (hm _ (.head _))
      rw [List.flatMap_cons, tmTimeout_config u d _ (ctx_params h e he), List.filter_cons]
      have ih := ih fun m hm' => hm m (.tail _ hm')
      cases hc : e.2.acceptsContext
      · simpa using ih
      · simp [flatFields, FieldDecl.flat, ih]
  exact this _ fun _ h => h

theorem config_vars {u : Uni} {d : Inputs} (h : GoInputs u d) {Γ : Ctx} (ht : Γ.see g!"time" = some (.pkg g!"time")) :
    (flatFields (d.sorted.flatMap (tmTimeout.configFields u d))).flatMap (FieldDecl.vars Γ) =
      (d.sorted.filter (·.acceptsContext)).map fun m => (m.name ++ g!"Timeout", Lib.duration) := by
  rw [config_fields h]
  generalize d.sorted.filter (·.acceptsContext) = l
  induction l with
  | nil => rfl
  | cons m l ih =>
    rw [List.map_cons, List.flatMap_cons, ih]
    simp [FieldDecl.vars, Ty.typ, ht, Lib.duration]

theorem config_typed {u : Uni} {d : Inputs} (h : GoInputs u d) (Γ : Ctx) (hi : Γ.inside = []) (ht : Γ.see g!"time" = some (.pkg g!"time")) :
    (∀ f ∈ flatFields (d.sorted.flatMap (tmTimeout.configFields u d)), f.Typed Γ) ∧
      (((flatFields (d.sorted.flatMap (tmTimeout.configFields u d))).flatMap (FieldDecl.vars Γ)).map (·.1)).Nodup := by
  rw [config_vars h ht, config_fields h]
  constructor
  · intro f hf
    obtain ⟨m, _, rfl⟩ := List.mem_map.mp hf
    simp [FieldDecl.Typed, Ty.Typed, ht, lib_types]
  · rw [List.map_map]
    have hn := (sorted_nodup h).sublist ((List.filter_sublist (p := fun m : Method => m.acceptsContext)).map fun m : Method => m.name)
    have : ((fun x : Str × Typ => x.1) ∘ fun m : Method => (m.name ++ g!"Timeout", Lib.duration)) = (· ++ g!"Timeout") ∘ (·.name) := rfl
    rw [this, ← List.map_map]
    exact List.Pairwise.map _ (fun _ _ hne e => hne (List.append_cancel_right e)) hn

theorem find_map {ms : List Method} {m : Method} (hm : m ∈ ms) {s : Str} {t : Typ} : find (m.name ++ s) (ms.map fun m => (m.name ++ s, t)) = some t := by
  induction ms with
  | nil => exact nomatch hm
  | cons a ms ih =>
    rw [List.map_cons]
    unfold Go.find
    rcases List.mem_cons.mp hm with rfl | hm
    · rw [if_pos rfl]
    · by_cases he : m.name ++ s = a.name ++ s
      · rw [if_pos he]
      · rw [if_neg he]
        exact ih hm

theorem typed_Log {u : Uni} {d : Inputs} (h : GoInputs u d) (hn : ∀ e ∈ d.methods, NamedMethod e.2)
    (hf : ∀ e ∈ d.methods, (Builtin.which ⟨Text.log, g!"WithLog", .all, false, [g!"_stdlog", g!"_errlog", g!"_base"]⟩).holds e.2 → FreshMethod ⟨[g!"_params"], [], []⟩ e.2)
    (hd : FreshName u d ⟨Text.log, g!"WithLog", .all, false, [g!"_stdlog", g!"_errlog", g!"_base"]⟩) (ht : TypedInputs d ⟨Text.log, g!"WithLog", .all, false, [g!"_stdlog", g!"_errlog", g!"_base"]⟩ ⟨[g!"_params"], [], []⟩) :
    Gives u d Text.log (tmLog.decls u d) ∧ FileTyped [] (typeToks d.type) (sourceMethods d) (flatDecls (tmLog.decls u d)) := by
  have hty := typeToks_eq h.type
  obtain ⟨hsv, hdt⟩ := srcVar_iface ht
  rw [hty] at hsv hdt ⊢
  have hs := tfile_Log (u := u) (d := d) (n := tmLog.names u d) (methods := sourceMethods d) hd.dec hsv hdt rfl rfl
  have hs2 : Ctx.see _ (decoratorName d _) = _ := hs.2.1
  refine (shape_log h).typed h [] rfl rfl hs.1 ?_ (fun e he hw => ?_)
  · simp [Ty.Typed, hs2]
  have hfr := hf e he trivial
  have hg := (h.methods e he).2
  have hu := unused_all hg hfr (ht.inner e he trivial)
  simp only [Ty.typ, hs2]
  exact log_typed _ (bodyOk h he (hn e he) hfr (ht.methods e he trivial) _ rfl) (unused_sub hu (by decide)) (hs.2.2.1.method hg hfr (by decide)) hs.2.2.2

theorem typed_Logrus {u : Uni} {d : Inputs} (h : GoInputs u d) (hn : ∀ e ∈ d.methods, NamedMethod e.2)
    (hf : ∀ e ∈ d.methods, (Builtin.which ⟨Text.logrus, g!"WithLogrus", .all, false, [g!"_log", g!"_base"]⟩).holds e.2 → FreshMethod ⟨[g!"string", g!"logrus"], [], []⟩ e.2)
    (hd : FreshName u d ⟨Text.logrus, g!"WithLogrus", .all, false, [g!"_log", g!"_base"]⟩) (ht : TypedInputs d ⟨Text.logrus, g!"WithLogrus", .all, false, [g!"_log", g!"_base"]⟩ ⟨[g!"string", g!"logrus"], [], []⟩) :
    Gives u d Text.logrus (tmLogrus.decls u d) ∧ FileTyped [] (typeToks d.type) (sourceMethods d) (flatDecls (tmLogrus.decls u d)) := by
  have hty := typeToks_eq h.type
  obtain ⟨hsv, hdt⟩ := srcVar_iface ht
  rw [hty] at hsv hdt ⊢
  have hs := tfile_Logrus (u := u) (d := d) (n := tmLogrus.names u d) (methods := sourceMethods d) hd.dec hsv hdt rfl rfl
  have hs2 : Ctx.see _ (decoratorName d _) = _ := hs.2.1
  refine (shape_logrus h).typed h [] rfl rfl hs.1 ?_ (fun e he hw => ?_)
  · simp [Ty.Typed, hs2]
  have hfr := hf e he trivial
  have hg := (h.methods e he).2
  have hu := unused_all hg hfr (ht.inner e he trivial)
  simp only [Ty.typ, hs2]
  exact logrus_typed _ (bodyOk h he (hn e he) hfr (ht.methods e he trivial) _ rfl) (unused_sub hu (by decide)) (hs.2.2.1.method hg hfr (by decide)) hs.2.2.2

theorem typed_Prometheus {u : Uni} {d : Inputs} (h : GoInputs u d) (hn : ∀ e ∈ d.methods, NamedMethod e.2)
    (hf : ∀ e ∈ d.methods, (Builtin.which ⟨Text.prometheus, g!"WithPrometheus", .all, false, [g!"base", g!"instanceName"]⟩).holds e.2 → FreshMethod ⟨[g!"_since", g!"time"], [], []⟩ e.2)
    (hd : FreshName u d ⟨Text.prometheus, g!"WithPrometheus", .all, false, [g!"base", g!"instanceName"]⟩) (ht : TypedInputs d ⟨Text.prometheus, g!"WithPrometheus", .all, false, [g!"base", g!"instanceName"]⟩ ⟨[g!"_since", g!"time"], [], []⟩) :
    Gives u d Text.prometheus (tmPrometheus.decls u d) ∧ FileTyped [] (typeToks d.type) (sourceMethods d) (flatDecls (tmPrometheus.decls u d)) := by
  have hty := typeToks_eq h.type
  obtain ⟨hsv, hdt⟩ := srcVar_iface ht
  rw [hty] at hsv hdt ⊢
  have hs := tfile_Prometheus (u := u) (d := d) (n := tmPrometheus.names u d) (methods := sourceMethods d) hd.dec (hd.metric rfl) hsv hdt rfl rfl
  have hs2 : Ctx.see _ (decoratorName d _) = _ := hs.2.1
  refine (shape_prometheus h).typed h [] rfl rfl hs.1 ?_ (fun e he hw => ?_)
  · simp [Ty.Typed, hs2]
  have hfr := hf e he trivial
  have hg := (h.methods e he).2
  have hu := unused_all hg hfr (ht.inner e he trivial)
  simp only [Ty.typ, hs2]
  have hx : u.lower d.name ++ g!"DurationSummaryVec" ∉ g!"_d" :: allNames e.2 := vec_unused (fun e => fresh_suffix (a := u.lower d.name) (s := g!"DurationSummaryVec") (by decide) (e ▸ by decide)) (hd.hidden rfl e he)
  have hxs : ∀ s ∈ templateNames, u.lower d.name ++ g!"DurationSummaryVec" ≠ s := fun s hs e => fresh_suffix (a := u.lower d.name) (s := g!"DurationSummaryVec") (by decide) (e ▸ hs)
  have hvec : Knows (bodyCtx _ (.decl (tmPrometheus.names u d).dec) e.2) [(u.lower d.name ++ g!"DurationSummaryVec", _)] := Knows.body (fun e he => by cases List.mem_singleton.mp he; exact hs.2.2.2.2) (fun a ha => by cases List.mem_singleton.mp ha; exact hx)
  exact prometheus_typed _ (bodyOk h he (hn e he) hfr (ht.methods e he trivial) _ rfl) (unused_sub hu (by decide)) (hs.2.2.1.method hg hfr (by decide)) hs.2.2.2.1 ⟨hvec _ (.head _), hxs _ (by decide), hxs _ (by decide), hxs _ (by decide)⟩

theorem typed_Opentracing {u : Uni} {d : Inputs} (h : GoInputs u d) (hn : ∀ e ∈ d.methods, NamedMethod e.2)
    (hf : ∀ e ∈ d.methods, (Builtin.which ⟨Text.opentracing, g!"WithTracing", .context, true, [g!"_instance", g!"_spanDecorator"]⟩).holds e.2 → FreshMethod ⟨[g!"_span", g!"string", g!"opentracing", g!"_ext", g!"_log"], [], []⟩ e.2)
    (hd : FreshName u d ⟨Text.opentracing, g!"WithTracing", .context, true, [g!"_instance", g!"_spanDecorator"]⟩) (ht : TypedInputs d ⟨Text.opentracing, g!"WithTracing", .context, true, [g!"_instance", g!"_spanDecorator"]⟩ ⟨[g!"_span", g!"string", g!"opentracing", g!"_ext", g!"_log"], [], []⟩) :
    Gives u d Text.opentracing (tmOpentracing.decls u d) ∧ FileTyped [] (typeToks d.type) (sourceMethods d) (flatDecls (tmOpentracing.decls u d)) := by
  have hty := typeToks_eq h.type
  obtain ⟨hsv, hdt⟩ := srcVar_iface ht
  have hfl := ht.field rfl
  rw [hty] at hsv hdt hfl ⊢
  have hs := tfile_Opentracing (u := u) (d := d) (n := tmOpentracing.names u d) (methods := sourceMethods d) hd.dec hfl.1 hfl.2 hsv hdt rfl rfl
  have hs2 : Ctx.see _ (decoratorName d _) = _ := hs.2.1
  refine (shape_opentracing h).typed h [] rfl rfl hs.1 ?_ (fun e he hw => ?_)
  · simp [Ty.Typed, hs2]
  have hfr := hf e he hw
  have hg := (h.methods e he).2
  have hu := unused_all hg hfr (ht.inner e he hw)
  simp only [Ty.typ, hs2]
  exact openTracing_typed _ _ (bodyOk h he (hn e he) hfr (ht.methods e he hw) _ rfl) (unused_sub hu (by decide)) (hs.2.2.1.method hg hfr (by decide)) hs.2.2.2 hw

theorem typed_Opencensus {u : Uni} {d : Inputs} (h : GoInputs u d) (hn : ∀ e ∈ d.methods, NamedMethod e.2)
    (hf : ∀ e ∈ d.methods, (Builtin.which ⟨Text.opencensus, g!"WithTracing", .context, true, [g!"_instance", g!"_spanDecorator"]⟩).holds e.2 → FreshMethod ⟨[g!"_span", g!"string", g!"trace"], [], []⟩ e.2)
    (hd : FreshName u d ⟨Text.opencensus, g!"WithTracing", .context, true, [g!"_instance", g!"_spanDecorator"]⟩) (ht : TypedInputs d ⟨Text.opencensus, g!"WithTracing", .context, true, [g!"_instance", g!"_spanDecorator"]⟩ ⟨[g!"_span", g!"string", g!"trace"], [], []⟩) :
    Gives u d Text.opencensus (tmOpencensus.decls u d) ∧ FileTyped [] (typeToks d.type) (sourceMethods d) (flatDecls (tmOpencensus.decls u d)) := by
  have hty := typeToks_eq h.type
  obtain ⟨hsv, hdt⟩ := srcVar_iface ht
  have hfl := ht.field rfl
  rw [hty] at hsv hdt hfl ⊢
  have hs := tfile_Opencensus (u := u) (d := d) (n := tmOpencensus.names u d) (methods := sourceMethods d) hd.dec hfl.1 hfl.2 hsv hdt rfl rfl
  have hs2 : Ctx.see _ (decoratorName d _) = _ := hs.2.1
  refine (shape_opencensus h).typed h [] rfl rfl hs.1 ?_ (fun e he hw => ?_)
  · simp [Ty.Typed, hs2]
  have hfr := hf e he hw
  have hg := (h.methods e he).2
  have hu := unused_all hg hfr (ht.inner e he hw)
  simp only [Ty.typ, hs2]
  exact openCensus_typed _ _ (bodyOk h he (hn e he) hfr (ht.methods e he hw) _ rfl) (unused_sub hu (by decide)) (hs.2.2.1.method hg hfr (by decide)) hs.2.2.2 hw

theorem typed_Opentelemetry {u : Uni} {d : Inputs} (h : GoInputs u d) (hn : ∀ e ∈ d.methods, NamedMethod e.2)
    (hf : ∀ e ∈ d.methods, (Builtin.which ⟨Text.opentelemetry, g!"WithTracing", .context, true, [g!"_instance", g!"_spanDecorator"]⟩).holds e.2 → FreshMethod ⟨[g!"_span", g!"string", g!"otel", g!"_codes", g!"attribute"], [], []⟩ e.2)
    (hd : FreshName u d ⟨Text.opentelemetry, g!"WithTracing", .context, true, [g!"_instance", g!"_spanDecorator"]⟩) (ht : TypedInputs d ⟨Text.opentelemetry, g!"WithTracing", .context, true, [g!"_instance", g!"_spanDecorator"]⟩ ⟨[g!"_span", g!"string", g!"otel", g!"_codes", g!"attribute"], [], []⟩) :
    Gives u d Text.opentelemetry (tmOpentelemetry.decls u d) ∧ FileTyped [] (typeToks d.type) (sourceMethods d) (flatDecls (tmOpentelemetry.decls u d)) := by
  have hty := typeToks_eq h.type
  obtain ⟨hsv, hdt⟩ := srcVar_iface ht
  have hfl := ht.field rfl
  rw [hty] at hsv hdt hfl ⊢
  have hs := tfile_Opentelemetry (u := u) (d := d) (n := tmOpentelemetry.names u d) (methods := sourceMethods d) hd.dec hfl.1 hfl.2 hsv hdt rfl rfl
  have hs2 : Ctx.see _ (decoratorName d _) = _ := hs.2.1
  refine (shape_opentelemetry h).typed h [] rfl rfl hs.1 ?_ (fun e he hw => ?_)
  · simp [Ty.Typed, hs2]
  have hfr := hf e he hw
  have hg := (h.methods e he).2
  have hu := unused_all hg hfr (ht.inner e he hw)
  simp only [Ty.typ, hs2]
  exact openTelemetry_typed _ _ (bodyOk h he (hn e he) hfr (ht.methods e he hw) _ rfl) (unused_sub hu (by decide)) (hs.2.2.1.method hg hfr (by decide)) hs.2.2.2 hw

theorem typed_Elasticapm {u : Uni} {d : Inputs} (h : GoInputs u d) (hn : ∀ e ∈ d.methods, NamedMethod e.2)
    (hf : ∀ e ∈ d.methods, (Builtin.which ⟨Text.elasticapm, g!"APMTracing", .context, false, [g!"base", g!"startSpan", g!"endSpan", g!"setLabel", g!"captureError", g!"spanType"]⟩).holds e.2 → FreshMethod ⟨[g!"span"], [], []⟩ e.2)
    (hd : FreshName u d ⟨Text.elasticapm, g!"APMTracing", .context, false, [g!"base", g!"startSpan", g!"endSpan", g!"setLabel", g!"captureError", g!"spanType"]⟩) (ht : TypedInputs d ⟨Text.elasticapm, g!"APMTracing", .context, false, [g!"base", g!"startSpan", g!"endSpan", g!"setLabel", g!"captureError", g!"spanType"]⟩ ⟨[g!"span"], [], []⟩) :
    Gives u d Text.elasticapm (tmElasticapm.decls u d) ∧ FileTyped [] (typeToks d.type) (sourceMethods d) (flatDecls (tmElasticapm.decls u d)) := by
  have hty := typeToks_eq h.type
  obtain ⟨hsv, hdt⟩ := srcVar_iface ht
  rw [hty] at hsv hdt ⊢
  have hs := tfile_Elasticapm (u := u) (d := d) (n := tmElasticapm.names u d) (methods := sourceMethods d) hd.dec (option_name (hd.option rfl)) hsv hdt rfl rfl
  have hs2 : Ctx.see _ (decoratorName d _) = _ := hs.2.1
  refine (shape_elasticapm h).typed h [] rfl rfl hs.1 ?_ (fun e he hw => ?_)
  · simp [Ty.Typed, hs2]
  have hfr := hf e he hw
  have hg := (h.methods e he).2
  have hu := unused_all hg hfr (ht.inner e he hw)
  simp only [Ty.typ, hs2]
  exact apm_typed _ _ (bodyOk h he (hn e he) hfr (ht.methods e he hw) _ rfl) (unused_sub hu (by decide)) (hs.2.2.1.method hg hfr (by decide)) hs.2.2.2 hw

theorem typed_Validate {u : Uni} {d : Inputs} (h : GoInputs u d) (hn : ∀ e ∈ d.methods, NamedMethod e.2)
    (hf : ∀ e ∈ d.methods, (Builtin.which ⟨Text.validate, g!"WithValidation", .all, true, []⟩).holds e.2 → FreshMethod ⟨[g!"error"], [g!"_v", g!"_ok"], []⟩ e.2)
    (hd : FreshName u d ⟨Text.validate, g!"WithValidation", .all, true, []⟩) (ht : TypedInputs d ⟨Text.validate, g!"WithValidation", .all, true, []⟩ ⟨[g!"error"], [g!"_v", g!"_ok"], []⟩) :
    Gives u d Text.validate (tmValidate.decls u d) ∧ FileTyped [] (typeToks d.type) (sourceMethods d) (flatDecls (tmValidate.decls u d)) := by
  have hty := typeToks_eq h.type
  obtain ⟨hsv, hdt⟩ := srcVar_iface ht
  have hfl := ht.field rfl
  rw [hty] at hsv hdt hfl ⊢
  have hs := tfile_Validate (u := u) (d := d) (n := tmValidate.names u d) (methods := sourceMethods d) hd.dec hfl.1 hsv hdt rfl rfl
  have hs2 : Ctx.see _ (decoratorName d _) = _ := hs.2.1
  refine (shape_validate h).typed h [] rfl rfl hs.1 ?_ (fun e he hw => ?_)
  · simp [Ty.Typed, hs2]
  have hfr := hf e he trivial
  have hg := (h.methods e he).2
  have hu := unused_all hg hfr (ht.inner e he trivial)
  simp only [Ty.typ, hs2]
  exact validate_typed _ (bodyOk h he (hn e he) hfr (ht.methods e he trivial) _ rfl) (unused_sub hu (by decide)) (hs.2.2.1.method hg hfr (by decide)) hs.2.2.2

theorem typed_TwirpValidate {u : Uni} {d : Inputs} (h : GoInputs u d) (hn : ∀ e ∈ d.methods, NamedMethod e.2)
    (hf : ∀ e ∈ d.methods, (Builtin.which ⟨Text.twirpValidate, g!"WithTwirpValidation", .all, true, []⟩).holds e.2 → FreshMethod ⟨[g!"error", g!"twirp"], [g!"_v", g!"_ok"], []⟩ e.2)
    (hd : FreshName u d ⟨Text.twirpValidate, g!"WithTwirpValidation", .all, true, []⟩) (ht : TypedInputs d ⟨Text.twirpValidate, g!"WithTwirpValidation", .all, true, []⟩ ⟨[g!"error", g!"twirp"], [g!"_v", g!"_ok"], []⟩) :
    Gives u d Text.twirpValidate (tmTwirpValidate.decls u d) ∧ FileTyped [] (typeToks d.type) (sourceMethods d) (flatDecls (tmTwirpValidate.decls u d)) := by
  have hty := typeToks_eq h.type
  obtain ⟨hsv, hdt⟩ := srcVar_iface ht
  have hfl := ht.field rfl
  rw [hty] at hsv hdt hfl ⊢
  have hs := tfile_TwirpValidate (u := u) (d := d) (n := tmTwirpValidate.names u d) (methods := sourceMethods d) hd.dec hfl.1 hsv hdt rfl rfl
  have hs2 : Ctx.see _ (decoratorName d _) = _ := hs.2.1
  refine (shape_twirp_validate h).typed h [] rfl rfl hs.1 ?_ (fun e he hw => ?_)
  · simp [Ty.Typed, hs2]
  have hfr := hf e he trivial
  have hg := (h.methods e he).2
  have hu := unused_all hg hfr (ht.inner e he trivial)
  simp only [Ty.typ, hs2]
  exact twirpValidate_typed _ (bodyOk h he (hn e he) hfr (ht.methods e he trivial) _ rfl) (unused_sub hu (by decide)) (hs.2.2.1.method hg hfr (by decide)) hs.2.2.2

theorem typed_GrpcValidate {u : Uni} {d : Inputs} (h : GoInputs u d) (hn : ∀ e ∈ d.methods, NamedMethod e.2)
    (hf : ∀ e ∈ d.methods, (Builtin.which ⟨Text.grpcValidate, g!"WithGRPCValidation", .error, true, []⟩).holds e.2 → FreshMethod ⟨[g!"error", g!"grpc_codes", g!"grpc_status"], [g!"_v", g!"_ok"], []⟩ e.2)
    (hd : FreshName u d ⟨Text.grpcValidate, g!"WithGRPCValidation", .error, true, []⟩) (ht : TypedInputs d ⟨Text.grpcValidate, g!"WithGRPCValidation", .error, true, []⟩ ⟨[g!"error", g!"grpc_codes", g!"grpc_status"], [g!"_v", g!"_ok"], []⟩) :
    Gives u d Text.grpcValidate (tmGrpcValidate.decls u d) ∧ FileTyped [] (typeToks d.type) (sourceMethods d) (flatDecls (tmGrpcValidate.decls u d)) := by
  have hty := typeToks_eq h.type
  obtain ⟨hsv, hdt⟩ := srcVar_iface ht
  have hfl := ht.field rfl
  rw [hty] at hsv hdt hfl ⊢
  have hs := tfile_GrpcValidate (u := u) (d := d) (n := tmGrpcValidate.names u d) (methods := sourceMethods d) hd.dec hfl.1 hsv hdt rfl rfl
  have hs2 : Ctx.see _ (decoratorName d _) = _ := hs.2.1
  refine (shape_grpc_validate h).typed h [] rfl rfl hs.1 ?_ (fun e he hw => ?_)
  · simp [Ty.Typed, hs2]
  have hfr := hf e he hw
  have hg := (h.methods e he).2
  have hu := unused_all hg hfr (ht.inner e he hw)
  simp only [Ty.typ, hs2]
  exact grpcValidate_typed _ (bodyOk h he (hn e he) hfr (ht.methods e he hw) _ rfl) (unused_sub hu (by decide)) (hs.2.2.1.method hg hfr (by decide)) hs.2.2.2

theorem typed_TwirpError {u : Uni} {d : Inputs} (h : GoInputs u d) (hn : ∀ e ∈ d.methods, NamedMethod e.2)
    (hf : ∀ e ∈ d.methods, (Builtin.which ⟨Text.twirpError, g!"WithTwirpError", .all, true, []⟩).holds e.2 → FreshMethod ⟨[g!"injectRequestDataToError"], [], [g!"json"]⟩ e.2)
    (hd : FreshName u d ⟨Text.twirpError, g!"WithTwirpError", .all, true, []⟩) (ht : TypedInputs d ⟨Text.twirpError, g!"WithTwirpError", .all, true, []⟩ ⟨[g!"injectRequestDataToError"], [], [g!"json"]⟩) :
    Gives u d Text.twirpError (tmTwirpError.decls u d) ∧ FileTyped [(g!"json", g!"encoding/json")] (typeToks d.type) (sourceMethods d) (flatDecls (tmTwirpError.decls u d)) := by
  have hty := typeToks_eq h.type
  obtain ⟨hsv, hdt⟩ := srcVar_iface ht
  have hfl := ht.field rfl
  rw [hty] at hsv hdt hfl ⊢
  have hs := tfile_TwirpError (u := u) (d := d) (n := tmTwirpError.names u d) (methods := sourceMethods d) hd.dec hfl.1 hsv hdt rfl rfl
  have hs2 : Ctx.see _ (decoratorName d _) = _ := hs.2.1
  refine (shape_twirp_error h).typed h [(g!"json", g!"encoding/json")] rfl rfl hs.1 ?_ (fun e he hw => ?_)
  · simp [Ty.Typed, hs2]
  have hfr := hf e he trivial
  have hg := (h.methods e he).2
  have hu := unused_all hg hfr (ht.inner e he trivial)
  simp only [Ty.typ, hs2]
  have hi : Knows (bodyCtx _ (.decl (tmTwirpError.names u d).dec) e.2) [(g!"injectRequestDataToError", _)] := Knows.method (fun e he => by cases List.mem_singleton.mp he; exact hs.2.2.2.2) hg hfr (by simp)
  exact twirpError_typed _ (bodyOk h he (hn e he) hfr (ht.methods e he trivial) _ rfl) (unused_sub hu (by decide)) (hs.2.2.1.method hg hfr (by decide)) hs.2.2.2.1 (hi _ (.head _))

theorem typed_Timeout {u : Uni} {d : Inputs} (h : GoInputs u d) (hn : ∀ e ∈ d.methods, NamedMethod e.2)
    (hf : ∀ e ∈ d.methods, (Builtin.which ⟨Text.timeout, g!"WithTimeout", .context, true, [g!"config"]⟩).holds e.2 → FreshMethod ⟨[g!"cancelFunc", g!"context"], [], []⟩ e.2)
    (hd : FreshName u d ⟨Text.timeout, g!"WithTimeout", .context, true, [g!"config"]⟩) (ht : TypedInputs d ⟨Text.timeout, g!"WithTimeout", .context, true, [g!"config"]⟩ ⟨[g!"cancelFunc", g!"context"], [], []⟩) :
    Gives u d Text.timeout (tmTimeout.decls u d) ∧ FileTyped [] (typeToks d.type) (sourceMethods d) (flatDecls (tmTimeout.decls u d)) := by
  have hty := typeToks_eq h.type
  obtain ⟨hsv, hdt⟩ := srcVar_iface ht
  have hfl := ht.field rfl
  rw [hty] at hsv hdt hfl ⊢
  have hs := tfile_Timeout (u := u) (d := d) (n := tmTimeout.names u d) (methods := sourceMethods d) hd.dec (config_typed h) hfl.1 hfl.2 hsv hdt rfl rfl
  have hs2 : Ctx.see _ (decoratorName d _) = _ := hs.2.1
  refine (shape_timeout h).typed h [] rfl rfl hs.1 ?_ (fun e he hw => ?_)
  · simp [Ty.Typed, hs2]
  have hfr := hf e he hw
  have hg := (h.methods e he).2
  have hu := unused_all hg hfr (ht.inner e he hw)
  simp only [Ty.typ, hs2]
  obtain ⟨fs, hc1, Γ', hc2, hc3⟩ := hs.2.2.2.2
  rw [config_vars h hc2] at hc3
  refine timeout_typed _ _ (bodyOk h he (hn e he) hfr (ht.methods e he hw) _ rfl) (unused_sub hu (by decide)) (hs.2.2.1.method hg hfr (by decide)) hs.2.2.2.1 hw (has_struct hc1 fun a ha => ?_)
  cases List.mem_singleton.mp ha
  rw [hc3]
  exact find_map (List.mem_filter.mpr ⟨mem_sorted.mpr ⟨e, he, rfl⟩, hw⟩)

theorem typed_Circuitbreaker {u : Uni} {d : Inputs} (h : GoInputs u d) (hn : ∀ e ∈ d.methods, NamedMethod e.2)
    (hf : ∀ e ∈ d.methods, (Builtin.which ⟨Text.circuitbreaker, g!"WithCircuitBreaker", .error, true, [g!"_lock", g!"_maxConsecutiveErrors", g!"_consecutiveErrors", g!"_openInterval", g!"_closesAt", g!"_ignoreErrors"]⟩).holds e.2 → FreshMethod ⟨[g!"errors", g!"time"], [g!"_e"], []⟩ e.2)
    (hd : FreshName u d ⟨Text.circuitbreaker, g!"WithCircuitBreaker", .error, true, [g!"_lock", g!"_maxConsecutiveErrors", g!"_consecutiveErrors", g!"_openInterval", g!"_closesAt", g!"_ignoreErrors"]⟩) (ht : TypedInputs d ⟨Text.circuitbreaker, g!"WithCircuitBreaker", .error, true, [g!"_lock", g!"_maxConsecutiveErrors", g!"_consecutiveErrors", g!"_openInterval", g!"_closesAt", g!"_ignoreErrors"]⟩ ⟨[g!"errors", g!"time"], [g!"_e"], []⟩) :
    Gives u d Text.circuitbreaker (tmCircuitbreaker.decls u d) ∧ FileTyped [] (typeToks d.type) (sourceMethods d) (flatDecls (tmCircuitbreaker.decls u d)) := by
  have hty := typeToks_eq h.type
  obtain ⟨hsv, hdt⟩ := srcVar_iface ht
  have hfl := ht.field rfl
  rw [hty] at hsv hdt hfl ⊢
  have hs := tfile_Circuitbreaker (u := u) (d := d) (n := tmCircuitbreaker.names u d) (methods := sourceMethods d) hd.dec hfl.1 hfl.2 hsv hdt rfl rfl
  have hs2 : Ctx.see _ (decoratorName d _) = _ := hs.2.1
  refine (shape_circuitbreaker h).typed h [] rfl rfl hs.1 ?_ (fun e he hw => ?_)
  · simp [Ty.Typed, hs2]
  have hfr := hf e he hw
  have hg := (h.methods e he).2
  have hu := unused_all hg hfr (ht.inner e he hw)
  simp only [Ty.typ, hs2]
  exact breaker_typed _ _ (bodyOk h he (hn e he) hfr (ht.methods e he hw) _ rfl) (unused_sub hu (by decide)) (hs.2.2.1.method hg hfr (by decide)) hs.2.2.2.ptr hw

theorem typed_Retry {u : Uni} {d : Inputs} (h : GoInputs u d) (hn : ∀ e ∈ d.methods, NamedMethod e.2)
    (hf : ∀ e ∈ d.methods, (Builtin.which ⟨Text.retry, g!"WithRetry", .error, true, [g!"_retryCount", g!"_retryInterval"]⟩).holds e.2 → FreshMethod ⟨[g!"_ticker", g!"time"], [g!"_i"], []⟩ e.2)
    (hd : FreshName u d ⟨Text.retry, g!"WithRetry", .error, true, [g!"_retryCount", g!"_retryInterval"]⟩) (ht : TypedInputs d ⟨Text.retry, g!"WithRetry", .error, true, [g!"_retryCount", g!"_retryInterval"]⟩ ⟨[g!"_ticker", g!"time"], [g!"_i"], []⟩) :
    Gives u d Text.retry (tmRetry.decls u d) ∧ FileTyped [] (typeToks d.type) (sourceMethods d) (flatDecls (tmRetry.decls u d)) := by
  have hty := typeToks_eq h.type
  obtain ⟨hsv, hdt⟩ := srcVar_iface ht
  have hfl := ht.field rfl
  rw [hty] at hsv hdt hfl ⊢
  have hs := tfile_Retry (u := u) (d := d) (n := tmRetry.names u d) (methods := sourceMethods d) hd.dec hfl.1 hfl.2 hsv hdt rfl rfl
  have hs2 : Ctx.see _ (decoratorName d _) = _ := hs.2.1
  refine (shape_retry h).typed h [] rfl rfl hs.1 ?_ (fun e he hw => ?_)
  · simp [Ty.Typed, hs2]
  have hfr := hf e he hw
  have hg := (h.methods e he).2
  have hu := unused_all hg hfr (ht.inner e he hw)
  simp only [Ty.typ, hs2]
  exact retry_typed _ (bodyOk h he (hn e he) hfr (ht.methods e he hw) _ rfl) (unused_sub hu (by decide)) (hs.2.2.1.method hg hfr (by decide)) hs.2.2.2 hw

theorem typed_Ratelimit {u : Uni} {d : Inputs} (h : GoInputs u d) (hn : ∀ e ∈ d.methods, NamedMethod e.2)
    (hf : ∀ e ∈ d.methods, (Builtin.which ⟨Text.ratelimit, g!"WithRateLimit", .all, false, [g!"_base", g!"_ticks"]⟩).holds e.2 → FreshMethod ⟨[], [], []⟩ e.2)
    (hd : FreshName u d ⟨Text.ratelimit, g!"WithRateLimit", .all, false, [g!"_base", g!"_ticks"]⟩) (ht : TypedInputs d ⟨Text.ratelimit, g!"WithRateLimit", .all, false, [g!"_base", g!"_ticks"]⟩ ⟨[], [], []⟩) :
    Gives u d Text.ratelimit (tmRatelimit.decls u d) ∧ FileTyped [] (typeToks d.type) (sourceMethods d) (flatDecls (tmRatelimit.decls u d)) := by
  have hty := typeToks_eq h.type
  obtain ⟨hsv, hdt⟩ := srcVar_iface ht
  rw [hty] at hsv hdt ⊢
  have hs := tfile_Ratelimit (u := u) (d := d) (n := tmRatelimit.names u d) (methods := sourceMethods d) hd.dec hsv hdt rfl rfl
  have hs2 : Ctx.see _ (decoratorName d _) = _ := hs.2.1
  refine (shape_ratelimit h).typed h [] rfl rfl hs.1 ?_ (fun e he hw => ?_)
  · simp [Ty.Typed, hs2]
  have hfr := hf e he trivial
  have hg := (h.methods e he).2
  have hu := unused_all hg hfr (ht.inner e he trivial)
  simp only [Ty.typ, hs2]
  exact rateLimit_typed (bodyOk h he (hn e he) hfr (ht.methods e he trivial) _ rfl) (unused_sub hu (by decide)) (hs.2.2.1.method hg hfr (by decide)) hs.2.2.2.ptr

theorem typed_Robinpool {u : Uni} {d : Inputs} (h : GoInputs u d) (hn : ∀ e ∈ d.methods, NamedMethod e.2)
    (hf : ∀ e ∈ d.methods, (Builtin.which ⟨Text.robinpool, g!"RoundRobinPool", .all, false, [g!"pool", g!"poolSize", g!"counter"]⟩).holds e.2 → FreshMethod ⟨[g!"_counter", g!"atomic"], [], []⟩ e.2)
    (hd : FreshName u d ⟨Text.robinpool, g!"RoundRobinPool", .all, false, [g!"pool", g!"poolSize", g!"counter"]⟩) (ht : TypedInputs d ⟨Text.robinpool, g!"RoundRobinPool", .all, false, [g!"pool", g!"poolSize", g!"counter"]⟩ ⟨[g!"_counter", g!"atomic"], [], []⟩) :
    Gives u d Text.robinpool (tmRobinpool.decls u d) ∧ FileTyped [] (typeToks d.type) (sourceMethods d) (flatDecls (tmRobinpool.decls u d)) := by
  have hty := typeToks_eq h.type
  obtain ⟨hsv, hdt⟩ := srcVar_iface ht
  rw [hty] at hsv hdt ⊢
  have hs := tfile_Robinpool (u := u) (d := d) (n := tmRobinpool.names u d) (methods := sourceMethods d) hd.dec hsv hdt rfl rfl
  have hs2 : Ctx.see _ (decoratorName d _) = _ := hs.2.1
  refine (shape_robinpool h).typed h [] rfl rfl hs.1 ?_ (fun e he hw => ?_)
  · simp [Ty.Typed, hs2]
  have hfr := hf e he trivial
  have hg := (h.methods e he).2
  have hu := unused_all hg hfr (ht.inner e he trivial)
  simp only [Ty.typ, hs2]
  exact robinPool_typed (bodyOk h he (hn e he) hfr (ht.methods e he trivial) _ rfl) (unused_sub hu (by decide)) (hs.2.2.1.method hg hfr (by decide)) (hs.2.2.2.ptr.sub (by simp [fileTypes]))

theorem typed_Syncpool {u : Uni} {d : Inputs} (h : GoInputs u d) (hn : ∀ e ∈ d.methods, NamedMethod e.2)
    (hf : ∀ e ∈ d.methods, (Builtin.which ⟨Text.syncpool, g!"Pool", .all, false, [g!"pool"]⟩).holds e.2 → FreshMethod ⟨[g!"_impl"], [], []⟩ e.2)
    (hd : FreshName u d ⟨Text.syncpool, g!"Pool", .all, false, [g!"pool"]⟩) (ht : TypedInputs d ⟨Text.syncpool, g!"Pool", .all, false, [g!"pool"]⟩ ⟨[g!"_impl"], [], []⟩) :
    Gives u d Text.syncpool (tmSyncpool.decls u d) ∧ FileTyped [] (typeToks d.type) (sourceMethods d) (flatDecls (tmSyncpool.decls u d)) := by
  have hty := typeToks_eq h.type
  obtain ⟨hsv, hdt⟩ := srcVar_iface ht
  have hp := ht.pool rfl
  rw [hty] at hsv hdt hp ⊢
  have hs := tfile_Syncpool (u := u) (d := d) (n := tmSyncpool.names u d) (methods := sourceMethods d) hd.dec hp hsv hdt rfl rfl
  have hs2 : Ctx.see _ (decoratorName d _) = _ := hs.2.1
  refine (shape_syncpool h).typed h [] rfl rfl hs.1 ?_ (fun e he hw => ?_)
  · simp [Ty.Typed, hs2]
  have hfr := hf e he trivial
  have hg := (h.methods e he).2
  have hu := unused_all hg hfr (ht.inner e he trivial)
  simp only [Ty.typ, hs2]
  exact syncPool_typed (bodyOk h he (hn e he) hfr (ht.methods e he trivial) _ rfl) (unused_sub hu (by decide)) (fun e he => nomatch he) hs.2.2.2

theorem typed_Fallback {u : Uni} {d : Inputs} (h : GoInputs u d) (hn : ∀ e ∈ d.methods, NamedMethod e.2)
    (hf : ∀ e ∈ d.methods, (Builtin.which ⟨Text.fallback, g!"WithFallback", .all, false, [g!"implementations", g!"interval"]⟩).holds e.2 → FreshMethod ⟨[g!"_resultStruct", g!"_ch", g!"_next", g!"_errorsList", g!"_ticker", g!"_cancelFunc", g!"_res", g!"string", g!"len", g!"append", g!"make", g!"time", g!"context", g!"fmt", g!"errors", g!"strings"], [g!"_res", g!"_impl"], [g!"context"]⟩ e.2)
    (hd : FreshName u d ⟨Text.fallback, g!"WithFallback", .all, false, [g!"implementations", g!"interval"]⟩) (ht : TypedInputs d ⟨Text.fallback, g!"WithFallback", .all, false, [g!"implementations", g!"interval"]⟩ ⟨[g!"_resultStruct", g!"_ch", g!"_next", g!"_errorsList", g!"_ticker", g!"_cancelFunc", g!"_res", g!"string", g!"len", g!"append", g!"make", g!"time", g!"context", g!"fmt", g!"errors", g!"strings"], [g!"_res", g!"_impl"], [g!"context"]⟩) :
    Gives u d Text.fallback (tmFallback.decls u d) ∧ FileTyped [(g!"context", g!"context")] (typeToks d.type) (sourceMethods d) (flatDecls (tmFallback.decls u d)) := by
  have hty := typeToks_eq h.type
  obtain ⟨hsv, hdt⟩ := srcVar_iface ht
  rw [hty] at hsv hdt ⊢
  have hs := tfile_Fallback (u := u) (d := d) (n := tmFallback.names u d) (methods := sourceMethods d) hd.dec hsv hdt rfl rfl
  have hs2 : Ctx.see _ (decoratorName d _) = _ := hs.2.1
  refine (shape_fallback h).typed h [(g!"context", g!"context")] rfl rfl hs.1 ?_ (fun e he hw => ?_)
  · simp [Ty.Typed, hs2]
  have hfr := hf e he trivial
  have hg := (h.methods e he).2
  have hu := unused_all hg hfr (ht.inner e he trivial)
  simp only [Ty.typ, hs2]
  have hin := bodyCtx_inside (Γ := fileCtx [(g!"context", g!"context")] (fileTypes [(g!"context", g!"context")] (lexed d.type) (sourceMethods d) (flatDecls (beforeFallback u d (tmFallback.names u d) []) ++ flatDecls afterFallback)) (flatDecls (beforeFallback u d (tmFallback.names u d) []) ++ flatDecls afterFallback)) (D := .decl (decoratorName d g!"WithFallback")) (m := e.2) rfl
  have hl : ∀ p ∈ e.2.results, lexed p.type = typeToks p.type := fun p hp => (typeToks_eq (hg.types p (List.mem_append_right _ hp))).symm
  have hu' : Unused [g!"_i"] (allNames e.2) := by
    intro x hx hm
    cases List.mem_singleton.mp hx
    obtain ⟨p, hp, hx⟩ := mem_allNames hm
    exact ht.counter rfl e he p hp hx
  have hal : ∀ x, x ∈ g!"_d" :: allNames e.2 → x ∈ g!"_d" :: (e.2.params ++ e.2.results).map (·.name) := by
    unfold allNames
    simp
  refine fallback_typed _ (bodyOk h he (hn e he) hfr (ht.methods e he trivial) _ rfl) (fun x hx => ?_) (hs.2.2.1.method hg hfr (by decide)) hs.2.2.2 hl hsv hdt (fun p hp x hx => ?_) (fun x hx => ?_) (fun hr => ?_) (fun hc => ?_)
  · have hall : ∀ x ∈ [g!"_impl", g!"_res", g!"nil", g!"fmt", g!"errors", g!"strings", g!"time", g!"context", g!"len", g!"append", g!"make", g!"string"] ++ fallbackLocals,
        x ∈ [g!"_i"] ∨ x ∈ [g!"nil", g!"true", g!"false"] ++ ((Locals.names ⟨[g!"_resultStruct", g!"_ch", g!"_next", g!"_errorsList", g!"_ticker", g!"_cancelFunc", g!"_res", g!"string", g!"len", g!"append", g!"make", g!"time", g!"context", g!"fmt", g!"errors", g!"strings"], [g!"_res", g!"_impl"], [g!"context"]⟩) ++ (Locals.inner ⟨[g!"_resultStruct", g!"_ch", g!"_next", g!"_errorsList", g!"_ticker", g!"_cancelFunc", g!"_res", g!"string", g!"len", g!"append", g!"make", g!"time", g!"context", g!"fmt", g!"errors", g!"strings"], [g!"_res", g!"_impl"], [g!"context"]⟩)) := by decide
    rcases hall x hx with hi | hi
    · exact hu' x hi
    · exact hu x hi
  · rw [hl p hp]
    exact ht.results rfl e he p hp x (hal x ((hin x).mp hx))
  · rw [← hty]
    refine ht.iface rfl e he x ?_
    rcases List.mem_append.mp hx with hx | hx
    · have hall : ∀ x ∈ fallbackLocals, x ∈ g!"_d" :: g!"_i" :: (Locals.names ⟨[g!"_resultStruct", g!"_ch", g!"_next", g!"_errorsList", g!"_ticker", g!"_cancelFunc", g!"_res", g!"string", g!"len", g!"append", g!"make", g!"time", g!"context", g!"fmt", g!"errors", g!"strings"], [g!"_res", g!"_impl"], [g!"context"]⟩) := by decide
      exact List.mem_append_left _ (hall x hx)
    · rcases List.mem_cons.mp (hal x ((hin x).mp hx)) with hx | hx
      · simp [hx]
      · exact List.mem_append_right _ hx
  · obtain ⟨p, hp, hx⟩ := (hn e he).err hr
    exact List.mem_map.mpr ⟨p, hp, hx⟩
  · obtain ⟨p, ps, hp, hx⟩ := hg.ctx hc
    exact List.mem_map.mpr ⟨p, by simp [hp], hx⟩

end Gowrap.Tmpl

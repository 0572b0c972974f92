import Verif.Proofs.Terminating
import Verif.Props.GeneratedDemo
/-!
# C67: functions with results return
-/

namespace Gowrap.Props

open Gowrap Tmpl Go Spec

/-- Every function of the generated code that has results ends in a terminating statement, as the compiler demands. -/
def C67_full : Prop := ∀ (u : Uni) (d : Inputs), GoInputs u d → ∀ b ∈ builtins,
  ∃ s ds, render u b.text d = some s ∧ Consists d s ds ∧ ∀ x ∈ flatDecls ds, x.Returns

/-- The functions beside the methods. -/
macro "around" "[" l:Lean.Parser.Tactic.simpLemma,* "]" : tactic =>
  `(tactic| simp [flatDecls, Decl.flat, Decl.Returns, endsIn, Stmt.terminates, literalsReturnIns, literalsReturnIn, Stmt.literalsReturn, Expr.literalsReturn,
    Results.count, groupCount, $l,*])

set_option maxRecDepth 100000 in
theorem returns_trees {u : Uni} {d : Inputs} (h : GoInputs u d) {x : Builtin × List Go.Decl} (hx : x ∈ builtins.zip (trees u d))
    (hf : x.1.text = Text.fallback → ∀ e ∈ d.methods, e.2.returnsError = true → e.2.acceptsContext = true) :
    Gives u d x.1.text x.2 ∧ ∀ y ∈ flatDecls x.2, y.Returns := by
  simp only [builtins, trees, List.zip_cons_cons, List.zip_nil_right, List.mem_cons, List.not_mem_nil, or_false] at hx
  rcases hx with rfl | rfl | rfl | rfl | rfl | rfl | rfl | rfl | rfl | rfl | rfl | rfl | rfl | rfl | rfl | rfl | rfl | rfl
  all_goals dsimp only
  · exact (shape_log h).returns (by around [beforeLog]) (fun e he _ => (fun hg => ⟨.inr hg.1, hg.2⟩) (log_returns _ _)) (by around [afterLog])
  · exact (shape_logrus h).returns (by around [beforeLogrus]) (fun e he _ => (fun hg => ⟨.inr hg.1, hg.2⟩) (logrus_returns _ _)) (by around [afterLogrus])
  · exact (shape_prometheus h).returns (by around [beforePrometheus]) (fun e he _ => (fun hg => ⟨.inr hg.1, hg.2⟩) (prometheus_returns _ _)) (by around [afterPrometheus])
  · exact (shape_opentracing h).returns (by around [beforeOpentracing]) (fun e he _ => (fun hg => ⟨.inr hg.1, hg.2⟩) (opentracing_returns _ _ _)) (by around [afterOpentracing])
  · exact (shape_opencensus h).returns (by around [beforeOpencensus]) (fun e he _ => (fun hg => ⟨.inr hg.1, hg.2⟩) (opencensus_returns _ _ _)) (by around [afterOpencensus])
  · exact (shape_opentelemetry h).returns (by around [beforeOpentelemetry]) (fun e he _ => (fun hg => ⟨.inr hg.1, hg.2⟩) (opentelemetry_returns _ _ _)) (by around [afterOpentelemetry])
  · exact (shape_elasticapm h).returns (by around [beforeElasticapm]) (fun e he _ => (fun hg => ⟨.inr hg.1, hg.2⟩) (apm_returns _ _ _)) (by around [afterElasticapm])
  · exact (shape_validate h).returns (by around [beforeValidate]) (fun e he _ => (fun hg => ⟨.inr hg.1, hg.2⟩) (validate_returns _ rfl _)) (by around [afterValidate])
  · exact (shape_twirp_validate h).returns (by around [beforeTwirpValidate]) (fun e he _ => (fun hg => ⟨.inr hg.1, hg.2⟩) (validate_returns _ rfl _)) (by around [afterTwirpValidate])
  · exact (shape_grpc_validate h).returns (by around [beforeGrpcValidate]) (fun e he _ => (fun hg => ⟨.inr hg.1, hg.2⟩) (validate_returns _ rfl _)) (by around [afterGrpcValidate])
  · exact (shape_twirp_error h).returns (by around [beforeTwirpError]) (fun e he _ => (fun hg => ⟨.inr hg.1, hg.2⟩) (twirpError_returns _ _)) (by around [afterTwirpError])
  · exact (shape_timeout h).returns (by around [beforeTimeout]) (fun e he _ => (fun hg => ⟨.inr hg.1, hg.2⟩) (timeout_returns _ _)) (by around [afterTimeout])
  · exact (shape_circuitbreaker h).returns (by around [beforeCircuitbreaker]) (fun e he _ => (fun hg => ⟨.inr hg.1, hg.2⟩) (breaker_returns _ _ _)) (by around [afterCircuitbreaker])
  · exact (shape_retry h).returns (by around [beforeRetry]) (fun e he _ => (fun hg => ⟨.inr hg.1, hg.2⟩) (retry_returns _ _)) (by around [afterRetry])
  · exact (shape_ratelimit h).returns (by around [beforeRatelimit]) (fun e he _ => (fun hg => ⟨.inr hg.1, hg.2⟩) (rateLimit_returns _)) (by around [afterRatelimit])
  · exact (shape_robinpool h).returns (by around [beforeRobinpool]) (fun e he _ => (fun hg => ⟨.inr hg.1, hg.2⟩) (robinPool_returns _)) (by around [afterRobinpool])
  · exact (shape_syncpool h).returns (by around [beforeSyncpool]) (fun e he _ => (fun hg => ⟨.inr hg.1, hg.2⟩) (syncPool_returns _)) (by around [afterSyncpool])
  · exact (shape_fallback h).returns (by around [beforeFallback]) (fun e he _ => (fun hg => ⟨.inr hg.1, hg.2⟩) (fallback_returns _ _ (hf rfl e he))) (by around [afterFallback])

/-- The claim without the methods of templates/fallback that return an error and take no context: after the error was appended to
`_errorsList` the `return` is missing. -/
theorem C67_returns_partial (u : Uni) (d : Inputs) (h : GoInputs u d) (b : Builtin) (hb : b ∈ builtins)
    (hf : b.text = Text.fallback → ∀ e ∈ d.methods, e.2.returnsError = true → e.2.acceptsContext = true) :
    ∃ s ds, render u b.text d = some s ∧ Consists d s ds ∧ ∀ x ∈ flatDecls ds, x.Returns := by
  obtain ⟨ds, hx⟩ := exists_zip (k := trees u d) (by simp [builtins, trees]) hb
  obtain ⟨⟨s, h1, h2⟩, h3⟩ := returns_trees h hx hf
  exact ⟨s, ds, h1, h2, h3⟩

example := C67_returns_partial Uni.ascii storeInputs store_good ⟨Text.fallback, g!"WithFallback", .all, false, [g!"implementations", g!"interval"]⟩
  (by simp [builtins]) (fun _ => by decide)

/-- With templates/fallback a method that returns an error and takes no context lacks a `return`. -/
theorem C67_fallback_missing_return (u : Uni) (d : Inputs) (h : GoInputs u d) (e : Str × Method) (he : e ∈ d.methods)
    (h1 : e.2.returnsError = true) (h2 : e.2.acceptsContext = false) :
    ∃ s ds, render u Text.fallback d = some s ∧ Consists d s ds ∧
      ∃ r t ps rs body, Go.Decl.method r t e.1 ps rs body ∈ flatDecls ds ∧ ¬ (Go.Decl.method r t e.1 ps rs body).Returns := by
  obtain ⟨⟨s, hr, hc⟩, hf⟩ := shape_fallback h
  refine ⟨s, _, hr, hc, g!"_d", .name (decoratorName d g!"WithFallback"), paramDecls e.2.params, paramDecls e.2.results, fallbackStmts d.type e.2, ?_, ?_⟩
  · rw [hf, (h.methods e he).1]
    refine List.mem_append_right _ (List.mem_append_left _ ?_)
    exact List.mem_map.mpr ⟨e.2, List.mem_filter.mpr ⟨mem_sorted.mpr ⟨e, he, rfl⟩, rfl⟩, rfl⟩
  · intro hret
    have hne := (h.methods e he).2.err h1
    rcases hret.1 with h0 | h0
    · cases hres : e.2.results with
      | nil => exact hne hres
      | cons p ps =>
        rw [hres] at h0
        simp [paramDecls, groupCount] at h0
    · rw [fallback_not_returns _ _ h1 h2] at h0
      exact nomatch h0

/-- `Close() error` -/
def closeMethod : Method where
  doc := []
  comment := []
  name := g!"Close"
  params := []
  results := [⟨[], [], g!"err", g!"error", false⟩]
  returnsError := true
  acceptsContext := false

def closerInputs : Inputs := { storeInputs with methods := [(g!"Close", closeMethod)] }

theorem closer_good : GoInputs Uni.ascii closerInputs :=
  { store_good with
    methods := by
      intro e he
      cases List.mem_singleton.mp he
      exact ⟨rfl, { len_good with
        name := by decide +kernel
        names := by decide +kernel
        types := by
          intro p hp
          cases List.mem_singleton.mp hp
          exact store_types _ (by decide)
        ctx := nofun
        err := fun _ => nofun
        variadic := by decide
        dots := dots_of (by decide +kernel)
        plain := by decide }⟩
    distinct := by decide
    vars := { store_good.vars with } }

example := C67_fallback_missing_return Uni.ascii closerInputs closer_good (g!"Close", closeMethod) List.mem_cons_self rfl rfl

end Gowrap.Props

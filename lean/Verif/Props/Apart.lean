import Verif.Proofs.Apart
import Verif.Props.Scope
/-!
# C79: generated code shares no memory that changes
-/

namespace Gowrap.Props

open Gowrap Tmpl Go Spec

/-- In the generated code no goroutine shares a variable with the function that starts it if one of them assigns to the variable after the
start.  Except for templates/circuitbreaker, which locks, no method assigns to memory that other calls see: calls at the same time are
independent of each other. -/
def C79_full : Prop := ∀ (u : Uni) (d : Inputs), GoInputs u d → (∀ e ∈ d.methods, NamedMethod e.2) → ∀ b ∈ builtins,
  ∃ s ds, render u b.text d = some s ∧ Consists d s ds ∧ (∀ x ∈ flatDecls ds, x.Apart) ∧
    (b.text ≠ Text.circuitbreaker → ∀ x ∈ flatDecls ds, x.Keeps)

/-- The functions beside the methods. -/
macro "beside" "[" l:Lean.Parser.Tactic.simpLemma,* "]" : tactic =>
  `(tactic| simp [flatDecls, Decl.flat, Decl.Apart, apartIn, Stmt.Apart, Expr.Apart, apartAny, apartClauses, setsIn, Stmt.sets, Expr.sets, setsAny, setsClauses,
    rootsOf, Expr.roots, Results.names, keepsIn, Stmt.keeps, Expr.keeps, keepsAny, keepsClauses, Stmt.introduces, introducedBy, idNames, Expr.idNames,
    boundNames, Group.names, Expr.isAtomic, usedIn, Stmt.uses, Expr.uses, usedByAny, $l,*])

macro "kept" "[" l:Lean.Parser.Tactic.simpLemma,* "]" : tactic =>
  `(tactic| simp [flatDecls, Decl.flat, Decl.Keeps, $l,*])

set_option maxRecDepth 100000 in
theorem apart_trees {u : Uni} {d : Inputs} (h : GoInputs u d) (hn : ∀ e ∈ d.methods, NamedMethod e.2) {x : Builtin × List Go.Decl}
    (hx : x ∈ builtins.zip (trees u d)) (hq : x.1.text = Text.fallback → ∀ e ∈ d.methods, Quiet e.2) :
    (Gives u d x.1.text x.2 ∧ ∀ y ∈ flatDecls x.2, y.Apart) ∧ (x.1.text ≠ Text.circuitbreaker → ∀ y ∈ flatDecls x.2, y.Keeps) := by
  simp only [builtins, trees, List.zip_cons_cons, List.zip_nil_right, List.mem_cons, List.not_mem_nil, or_false] at hx
  rcases hx with rfl | rfl | rfl | rfl | rfl | rfl | rfl | rfl | rfl | rfl | rfl | rfl | rfl | rfl | rfl | rfl | rfl | rfl
  all_goals dsimp only at hq ⊢
  · exact ⟨(shape_log h).apart (by beside [beforeLog]) (fun e he _ => log_apart _ _ _ _) (by beside [afterLog]),
      fun _ => (shape_log h).keeps (by kept [beforeLog]) (fun e he hw => log_keeps _) (by kept [afterLog])⟩
  · exact ⟨(shape_logrus h).apart (by beside [beforeLogrus]) (fun e he _ => logrus_apart _ _ _ _) (by beside [afterLogrus]),
      fun _ => (shape_logrus h).keeps (by kept [beforeLogrus]) (fun e he hw => logrus_keeps _) (by kept [afterLogrus])⟩
  · exact ⟨(shape_prometheus h).apart (by beside [beforePrometheus]) (fun e he _ => prometheus_apart _ _ _ _) (by beside [afterPrometheus]),
      fun _ => (shape_prometheus h).keeps (by kept [beforePrometheus]) (fun e he hw => prometheus_keeps _) (by kept [afterPrometheus])⟩
  · exact ⟨(shape_opentracing h).apart (by beside [beforeOpentracing]) (fun e he _ => opentracing_apart _ _ _ _ _) (by beside [afterOpentracing]),
      fun _ => (shape_opentracing h).keeps (by kept [beforeOpentracing]) (fun e he hw => opentracing_keeps _ _) (by kept [afterOpentracing])⟩
  · exact ⟨(shape_opencensus h).apart (by beside [beforeOpencensus]) (fun e he _ => opencensus_apart _ _ _ _ _) (by beside [afterOpencensus]),
      fun _ => (shape_opencensus h).keeps (by kept [beforeOpencensus]) (fun e he hw => opencensus_keeps _ _) (by kept [afterOpencensus])⟩
  · exact ⟨(shape_opentelemetry h).apart (by beside [beforeOpentelemetry]) (fun e he _ => opentelemetry_apart _ _ _ _ _) (by beside [afterOpentelemetry]),
      fun _ => (shape_opentelemetry h).keeps (by kept [beforeOpentelemetry]) (fun e he hw => opentelemetry_keeps _ _) (by kept [afterOpentelemetry])⟩
  · exact ⟨(shape_elasticapm h).apart (by beside [beforeElasticapm]) (fun e he _ => apm_apart _ _ _ _ _) (by beside [afterElasticapm]),
      fun _ => (shape_elasticapm h).keeps (by kept [beforeElasticapm]) (fun e he hw => apm_keeps _ _) (by kept [afterElasticapm])⟩
  · exact ⟨(shape_validate h).apart (by beside [beforeValidate]) (fun e he _ => validate_apart _ _ _ (fun _ => by apart [invalidStmts, twirpInvalidStmts, grpcInvalidStmts]) _) (by beside [afterValidate]),
      fun _ => (shape_validate h).keeps (by kept [beforeValidate]) (fun e he hw => validate_keeps (hn e he) (fun own ho => by keeps [invalidStmts, twirpInvalidStmts, grpcInvalidStmts, ho]) _) (by kept [afterValidate])⟩
  · exact ⟨(shape_twirp_validate h).apart (by beside [beforeTwirpValidate]) (fun e he _ => validate_apart _ _ _ (fun _ => by apart [invalidStmts, twirpInvalidStmts, grpcInvalidStmts]) _) (by beside [afterTwirpValidate]),
      fun _ => (shape_twirp_validate h).keeps (by kept [beforeTwirpValidate]) (fun e he hw => validate_keeps (hn e he) (fun own ho => by keeps [invalidStmts, twirpInvalidStmts, grpcInvalidStmts, ho]) _) (by kept [afterTwirpValidate])⟩
  · exact ⟨(shape_grpc_validate h).apart (by beside [beforeGrpcValidate]) (fun e he _ => validate_apart _ _ _ (fun _ => by apart [invalidStmts, twirpInvalidStmts, grpcInvalidStmts]) _) (by beside [afterGrpcValidate]),
      fun _ => (shape_grpc_validate h).keeps (by kept [beforeGrpcValidate]) (fun e he hw => validate_keeps (hn e he) (fun own ho => by keeps [invalidStmts, twirpInvalidStmts, grpcInvalidStmts, ho]) _) (by kept [afterGrpcValidate])⟩
  · exact ⟨(shape_twirp_error h).apart (by beside [beforeTwirpError]) (fun e he _ => twirpError_apart _ _ _ _) (by beside [afterTwirpError]),
      fun _ => (shape_twirp_error h).keeps (by kept [beforeTwirpError]) (fun e he hw => twirpError_keeps (hn e he) _) (by kept [afterTwirpError])⟩
  · exact ⟨(shape_timeout h).apart (by beside [beforeTimeout]) (fun e he _ => timeout_apart _ _ _ _) (by beside [afterTimeout]),
      fun _ => (shape_timeout h).keeps (by kept [beforeTimeout]) (fun e he hw => timeout_keeps (h.methods e he).2 hw _) (by kept [afterTimeout])⟩
  · exact ⟨(shape_circuitbreaker h).apart (by beside [beforeCircuitbreaker]) (fun e he _ => breaker_apart _ _ _ _ _) (by beside [afterCircuitbreaker]),
      fun hc => absurd rfl hc⟩
  · exact ⟨(shape_retry h).apart (by beside [beforeRetry]) (fun e he _ => retry_apart _ _ _ _) (by beside [afterRetry]),
      fun _ => (shape_retry h).keeps (by kept [beforeRetry]) (fun e he hw => retry_keeps (hn e he) hw _) (by kept [afterRetry])⟩
  · exact ⟨(shape_ratelimit h).apart (by beside [beforeRatelimit]) (fun e he _ => rateLimit_apart _ _ _) (by beside [afterRatelimit]),
      fun _ => (shape_ratelimit h).keeps (by kept [beforeRatelimit]) (fun e he hw => rateLimit_keeps (hn e he)) (by kept [afterRatelimit])⟩
  · exact ⟨(shape_robinpool h).apart (by beside [beforeRobinpool]) (fun e he _ => robinPool_apart _ _ _) (by beside [afterRobinpool]),
      fun _ => (shape_robinpool h).keeps (by kept [beforeRobinpool]) (fun e he hw => robinPool_keeps) (by kept [afterRobinpool])⟩
  · exact ⟨(shape_syncpool h).apart (by beside [beforeSyncpool]) (fun e he _ => syncPool_apart _ _ _) (by beside [afterSyncpool]),
      fun _ => (shape_syncpool h).keeps (by kept [beforeSyncpool]) (fun e he hw => syncPool_keeps) (by kept [afterSyncpool])⟩
  · exact ⟨(shape_fallback h).apart (by beside [beforeFallback]) (fun e he _ => fallback_apart (hq rfl e he) _) (by beside [afterFallback]),
      fun _ => (shape_fallback h).keeps (by kept [beforeFallback]) (fun e he hw => fallback_keeps (hn e he) _) (by kept [afterFallback])⟩

/-- The claim without some names of parameters and results for templates/fallback.  The parameter `_i` is `C79_fallback_counter`; with the
other names the generated code does not compile or changes its meaning (C72). -/
theorem C79_apart_partial (u : Uni) (d : Inputs) (h : GoInputs u d) (hn : ∀ e ∈ d.methods, NamedMethod e.2) (b : Builtin) (hb : b ∈ builtins)
    (hf : b.text = Text.fallback → ∀ e ∈ d.methods, (∀ p ∈ e.2.params, p.name ∉ [g!"_res", g!"_errorsList", g!"_i"]) ∧
      ∀ p ∈ e.2.results, p.name ∉ [g!"_d", g!"_impl", g!"_ch", g!"_next", g!"_ticker", g!"len", g!"fmt"]) :
    ∃ s ds, render u b.text d = some s ∧ Consists d s ds ∧ (∀ x ∈ flatDecls ds, x.Apart) ∧
      (b.text ≠ Text.circuitbreaker → ∀ x ∈ flatDecls ds, x.Keeps) := by
  obtain ⟨ds, hx⟩ := exists_zip (k := trees u d) (by simp [builtins, trees]) hb
  obtain ⟨⟨⟨s, h1, h2⟩, h3⟩, h4⟩ := apart_trees h hn hx (fun ht e he => ⟨hn e he, (h.methods e he).2, (hf ht e he).1, (hf ht e he).2⟩)
  exact ⟨s, ds, h1, h2, h3, h4⟩

example (b : Builtin) (hb : b ∈ builtins) := C79_apart_partial Uni.ascii storeInputs store_good store_named b hb (fun _ => by decide)

/-- With templates/fallback a parameter `_i` is hidden by the counter of the goroutine that starts the implementations: their goroutines
use the counter while that goroutine increments it. -/
theorem C79_fallback_counter (u : Uni) (d : Inputs) (h : GoInputs u d) (e : Str × Method) (he : e ∈ d.methods) (p : Param) (hp : p ∈ e.2.params)
    (hi : p.name = g!"_i") :
    ∃ s ds, render u Text.fallback d = some s ∧ Consists d s ds ∧
      ∃ r t ps rs body, Go.Decl.method r t e.1 ps rs body ∈ flatDecls ds ∧ ¬ (Go.Decl.method r t e.1 ps rs body).Apart := by
  obtain ⟨⟨s, hr, hc⟩, hf⟩ := shape_fallback h
  refine ⟨s, _, hr, hc, g!"_d", .name (decoratorName d g!"WithFallback"), paramDecls e.2.params, paramDecls e.2.results, fallbackStmts d.type e.2, ?_, ?_⟩
  · rw [hf, (h.methods e he).1]
    refine List.mem_append_right _ (List.mem_append_left _ ?_)
    exact List.mem_map.mpr ⟨e.2, List.mem_filter.mpr ⟨mem_sorted.mpr ⟨e, he, rfl⟩, rfl⟩, rfl⟩
  · exact fallback_counter hp hi _ _ _

example := C79_fallback_counter Uni.ascii (traceInputs g!"_i" g!"n") (trace_good (by decide +kernel) (by decide +kernel) (by decide))
  (g!"Trace", traceMethod g!"_i" g!"n") List.mem_cons_self ⟨[], [], g!"_i", g!"int", false⟩ (by decide) rfl

end Gowrap.Props

import Verif.Proofs.Scope
import Verif.Spec.ScopeNames
/-!
# The generated files obey the rules of declarations and scope
-/

namespace Gowrap.Tmpl

open Gowrap Go Spec

set_option maxRecDepth 100000
set_option maxHeartbeats 2000000

theorem boundNames_params (ps : List Param) : boundNames (paramDecls ps) = ps.map (·.name) := boundNames_decls

theorem packages_methods (ty : Ty) (stmts : Method → List Stmt) (ms : List Method) : (ms.map (methodOn ty stmts)).flatMap Decl.packages = [] := by
  induction ms with
  | nil => rfl
  | cons m ms ih => simpa [Decl.packages, methodOn] using ih

theorem values_methods (ty : Ty) (stmts : Method → List Stmt) (ms : List Method) : (ms.map (methodOn ty stmts)).flatMap Decl.values = [] := by
  induction ms with
  | nil => rfl
  | cons m ms ih => simpa [Decl.values, methodOn] using ih

theorem types_methods (ty : Ty) (stmts : Method → List Stmt) (ms : List Method) : (ms.map (methodOn ty stmts)).flatMap Go.Decl.types = [] := by
  induction ms with
  | nil => rfl
  | cons m ms ih => simpa [Go.Decl.types, methodOn] using ih

theorem names_methods (ty : Ty) (stmts : Method → List Stmt) (ms : List Method) :
    (ms.map (methodOn ty stmts)).flatMap (fun x => x.types ++ x.values) = [] := by
  induction ms with
  | nil => rfl
  | cons m ms ih => simpa [Go.Decl.types, Decl.values, methodOn] using ih

/-- The names of the parameters and results. -/
def allNames (m : Method) : List Str := m.params.map (·.name) ++ m.results.map (·.name)

/-- The file obeys the rules if its parts do. -/
theorem FileShape.scoped {u : Uni} {d : Inputs} {text : Str} {ds pre : List Go.Decl} {ty : Ty} {w : Method → Bool} {stmts : Method → List Stmt}
    {post : List Go.Decl} (h : FileShape u d text ds pre ty w stmts post) (added : List Str)
    (h0 : FileScoped added (flatDecls pre ++ flatDecls post)) (ht : ty.Scoped (fileScope added (flatDecls pre ++ flatDecls post)))
    (h1 : ∀ e ∈ d.methods, w e.2 = true → Go.Distinct (g!"_d" :: allNames e.2) ∧
      stmtsScoped (.enter (fileScope added (flatDecls pre ++ flatDecls post)) (g!"_d" :: allNames e.2) (e.2.results.map (·.name))) (fun _ => false) (stmts e.2)) :
    Gives u d text ds ∧ FileScoped added (flatDecls ds) := by
  obtain ⟨hr, hf⟩ := h
  refine ⟨hr, ?_⟩
  have hs : fileScope added (flatDecls ds) = fileScope added (flatDecls pre ++ flatDecls post) := by
    rw [hf]
    unfold fileScope
    simp only [List.flatMap_append, packages_methods, values_methods, types_methods, List.nil_append]
  have hn : (flatDecls ds).flatMap (fun x => x.types ++ x.values) = (flatDecls pre ++ flatDecls post).flatMap (fun x => x.types ++ x.values) := by
    rw [hf]
    simp only [List.flatMap_append, names_methods, List.nil_append]
  have hp : (flatDecls ds).flatMap Decl.packages = (flatDecls pre ++ flatDecls post).flatMap Decl.packages := by
    rw [hf]
    simp only [List.flatMap_append, packages_methods, List.nil_append]
  unfold FileScoped at h0 ⊢
  rw [hs, hn, hp]
  refine ⟨fun x hx => ?_, h0.2⟩
  rw [hf, List.mem_append, List.mem_append] at hx
  rcases hx with hx | hx | hx
  · exact h0.1 x (List.mem_append_left _ hx)
  · obtain ⟨m, hm, rfl⟩ := List.mem_map.mp hx
    obtain ⟨hm, hw⟩ := List.mem_filter.mp hm
    obtain ⟨e, he, rfl⟩ := mem_sorted.mp hm
    obtain ⟨ha, hb⟩ := h1 e he hw
    refine ⟨ht, groupsScoped_decls, groupsScoped_decls, ?_, ?_⟩
    · rw [boundNames_params, boundNames_params]; exact ha
    · rw [boundNames_params, boundNames_params]; exact hb
  · exact h0.1 x (List.mem_append_right _ hx)

theorem ne_append_left {a b : Str} (h : b ≠ []) : a ++ b ≠ a := by
  intro e
  exact h (List.append_right_eq_self.mp e)

theorem ne_append_right {a b : Str} (h : b ≠ []) : b ++ a ≠ a := by
  intro e
  exact h (List.append_left_eq_self.mp e)

theorem length_ne {a b : Str} (h : a.length ≠ b.length) : a ≠ b := fun e => h (congrArg _ e)

/-- The packages that the templates import. -/
theorem imported : importName (none, g!"errors") = g!"errors" ∧
    importName (none, g!"sync") = g!"sync" ∧
    importName (none, g!"time") = g!"time" ∧
    importName (none, g!"context") = g!"context" ∧
    importName (none, g!"go.elastic.co/apm/v2") = g!"apm" ∧
    importName (none, g!"fmt") = g!"fmt" ∧
    importName (none, g!"strings") = g!"strings" ∧
    importName (none, g!"io") = g!"io" ∧
    importName (none, g!"log") = g!"log" ∧
    importName (none, g!"github.com/sirupsen/logrus") = g!"logrus" ∧
    importName (none, g!"go.opencensus.io/trace") = g!"trace" ∧
    importName (none, g!"go.opentelemetry.io/otel") = g!"otel" ∧
    importName (none, g!"go.opentelemetry.io/otel/attribute") = g!"attribute" ∧
    importName (none, g!"go.opentelemetry.io/otel/trace") = g!"trace" ∧
    importName (none, g!"github.com/prometheus/client_golang/prometheus") = g!"prometheus" ∧
    importName (none, g!"github.com/prometheus/client_golang/prometheus/promauto") = g!"promauto" ∧
    importName (none, g!"sync/atomic") = g!"atomic" ∧
    importName (none, g!"github.com/twitchtv/twirp") = g!"twirp" := by
  decide +kernel

theorem imported_as (x p : Str) : importName (some x, p) = x := rfl

/-- No name of the templates ends like this. -/
theorem fresh_suffix {a s : Str} (h : templateNames.all (fun w => !s.isSuffixOf w) = true) : a ++ s ∉ templateNames := by
  intro hm
  have := List.all_eq_true.mp h _ hm
  rw [List.isSuffixOf_iff_suffix.mpr (List.suffix_append a s)] at this
  exact nomatch this

theorem fresh_must {a : Str} : g!"MustNew" ++ a ∉ templateNames := by
  intro hm
  have h : templateNames.all (fun w => !g!"MustNew".isPrefixOf w) = true := by decide
  have := List.all_eq_true.mp h _ hm
  simp at this

theorem fresh_both {a : Str} {l : List Str} (h : a ∉ templateNames) (hl : ∀ x ∈ l, x ∈ templateNames) : (∀ x ∈ l, ¬ a = x) ∧ ∀ x ∈ l, ¬ x = a :=
  ⟨fun x hx e => h (e ▸ hl x hx), fun x hx e => h (e ▸ hl x hx)⟩

theorem sym_ne {a b : Str} (h : a ≠ b) : ¬ a = b ∧ ¬ b = a := ⟨h, fun e => h e.symm⟩

/-- Predeclared names that the templates use. -/
theorem predeclared_used : predeclared g!"true" = some .value ∧ predeclared g!"false" = some .value ∧ predeclared g!"nil" = some .value ∧ predeclared g!"append" = some .value ∧ predeclared g!"len" = some .value ∧ predeclared g!"make" = some .value ∧ predeclared g!"panic" = some .value ∧ predeclared g!"error" = some .type ∧ predeclared g!"float64" = some .type ∧ predeclared g!"int" = some .type ∧ predeclared g!"string" = some .type ∧ predeclared g!"uint32" = some .type := by
  decide +kernel

theorem predeclared_unused : predeclared g!"_d" = none ∧ predeclared g!"ctx" = none ∧ predeclared g!"err" = none ∧ predeclared g!"_span" = none ∧ predeclared g!"span" = none ∧ predeclared g!"_ticker" = none ∧ predeclared g!"_v" = none ∧ predeclared g!"_impl" = none ∧ predeclared g!"_res" = none ∧ predeclared g!"_cancelFunc" = none ∧ predeclared g!"cancelFunc" = none ∧ predeclared g!"_since" = none ∧ predeclared g!"_counter" = none ∧ predeclared g!"base" = none ∧ predeclared g!"burst" = none ∧ predeclared g!"config" = none ∧ predeclared g!"consecutiveErrors" = none ∧ predeclared g!"d" = none ∧ predeclared g!"delay" = none ∧ predeclared g!"fn" = none ∧ predeclared g!"i" = none ∧ predeclared g!"ignoreErrors" = none ∧ predeclared g!"impls" = none ∧ predeclared g!"instance" = none ∧ predeclared g!"instanceName" = none ∧ predeclared g!"interval" = none ∧ predeclared g!"jsonReq" = none ∧ predeclared g!"key" = none ∧ predeclared g!"now" = none ∧ predeclared g!"ok" = none ∧ predeclared g!"openInterval" = none ∧ predeclared g!"opts" = none ∧ predeclared g!"perr" = none ∧ predeclared g!"pool" = none ∧ predeclared g!"r" = none ∧ predeclared g!"req" = none ∧ predeclared g!"retryCount" = none ∧ predeclared g!"retryInterval" = none ∧ predeclared g!"rps" = none ∧ predeclared g!"spanDecorator" = none ∧ predeclared g!"spanType" = none ∧ predeclared g!"stderr" = none ∧ predeclared g!"stdout" = none ∧ predeclared g!"t" = none ∧ predeclared g!"twerr" = none ∧ predeclared g!"v" = none ∧ predeclared g!"value" = none ∧ predeclared g!"injectRequestDataToError" = none := by
  decide +kernel

/-- What else is declared. -/
macro "filescope" "[" l:Lean.Parser.Tactic.simpLemma,* "]" : tactic =>
  `(tactic| scope [FileScoped, fileScope, flatDecls, Decl.flat, Decl.Scoped, FuncScoped, flatFields, FieldDecl.flat, FieldDecl.Scoped, Decl.packages, Go.Decl.types, Decl.values,
    imported, imported_as, predeclared_used, predeclared_unused, Clear, dotted, mapType, $l,*])

theorem file_Log {u : Uni} {d : Inputs} {n : Names} (hd : n.dec ∉ templateNames) :
    FileScoped [] (flatDecls (beforeLog u d n []) ++ flatDecls afterLog) ∧
      fileScope [] (flatDecls (beforeLog u d n []) ++ flatDecls afterLog) n.dec = some .type ∧
      Sees (fileScope [] (flatDecls (beforeLog u d n []) ++ flatDecls afterLog)) [(g!"nil", .value)] ∧
      Clear (fileScope [] (flatDecls (beforeLog u d n []) ++ flatDecls afterLog)) := by
  replace hd := fresh_both (a := n.dec) (l := [g!"_", g!"nil", g!"apm", g!"io", g!"log", g!"base", g!"ctx", g!"err", g!"span", g!"stderr", g!"stdout", g!"_d", g!"_span", g!"_ticker", g!"_v", g!"_impl", g!"_res", g!"_cancelFunc", g!"cancelFunc", g!"_since", g!"_counter", g!"result"]) hd (by decide)
  have h1 : ¬ n.dec = g!"New" ++ n.dec := length_ne (by simp only [List.length_append, List.length_cons]; omega)
  have h2 : ¬ g!"New" ++ n.dec = n.dec := length_ne (by simp only [List.length_append, List.length_cons]; omega)
  unfold beforeLog afterLog fieldsLog
  simp at hd h1 h2
  filescope [Sees, beforeLog, afterLog, fieldsLog, hd, h1, h2]

theorem file_Logrus {u : Uni} {d : Inputs} {n : Names} (hd : n.dec ∉ templateNames) :
    FileScoped [] (flatDecls (beforeLogrus u d n []) ++ flatDecls afterLogrus) ∧
      fileScope [] (flatDecls (beforeLogrus u d n []) ++ flatDecls afterLogrus) n.dec = some .type ∧
      Sees (fileScope [] (flatDecls (beforeLogrus u d n []) ++ flatDecls afterLogrus)) [(g!"nil", .value), (g!"string", .type), (g!"logrus", .pkg)] ∧
      Clear (fileScope [] (flatDecls (beforeLogrus u d n []) ++ flatDecls afterLogrus)) := by
  replace hd := fresh_both (a := n.dec) (l := [g!"_", g!"string", g!"nil", g!"apm", g!"io", g!"log", g!"_log", g!"logrus", g!"base", g!"ctx", g!"err", g!"span", g!"_d", g!"_span", g!"_ticker", g!"_v", g!"_impl", g!"_res", g!"_cancelFunc", g!"cancelFunc", g!"_since", g!"_counter", g!"result"]) hd (by decide)
  have h1 : ¬ n.dec = g!"New" ++ n.dec := length_ne (by simp only [List.length_append, List.length_cons]; omega)
  have h2 : ¬ g!"New" ++ n.dec = n.dec := length_ne (by simp only [List.length_append, List.length_cons]; omega)
  unfold beforeLogrus afterLogrus fieldsLogrus
  simp at hd h1 h2
  filescope [Sees, beforeLogrus, afterLogrus, fieldsLogrus, hd, h1, h2]

theorem file_Prometheus {u : Uni} {d : Inputs} {n : Names} (hd : n.dec ∉ templateNames) (hvec : u.lower d.name ++ g!"DurationSummaryVec" ∉ [n.dec, g!"New" ++ n.dec]) :
    FileScoped [] (flatDecls (beforePrometheus u d n []) ++ flatDecls afterPrometheus) ∧
      fileScope [] (flatDecls (beforePrometheus u d n []) ++ flatDecls afterPrometheus) n.dec = some .type ∧
      Sees (fileScope [] (flatDecls (beforePrometheus u d n []) ++ flatDecls afterPrometheus)) [(g!"nil", .value), (g!"time", .pkg)] ∧
      Clear (fileScope [] (flatDecls (beforePrometheus u d n []) ++ flatDecls afterPrometheus)) ∧
      fileScope [] (flatDecls (beforePrometheus u d n []) ++ flatDecls afterPrometheus) (u.lower d.name ++ g!"DurationSummaryVec") = some .value ∧
        u.lower d.name ++ g!"DurationSummaryVec" ≠ g!"_" ∧ u.lower d.name ++ g!"DurationSummaryVec" ≠ g!"result" ∧ u.lower d.name ++ g!"DurationSummaryVec" ≠ g!"_d" := by
  replace hd := fresh_both (a := n.dec) (l := [g!"_", g!"float64", g!"string", g!"nil", g!"apm", g!"promauto", g!"prometheus", g!"time", g!"base", g!"ctx", g!"err", g!"instanceName", g!"span", g!"_d", g!"_span", g!"_ticker", g!"_v", g!"_impl", g!"_res", g!"_cancelFunc", g!"cancelFunc", g!"_since", g!"_counter", g!"result"]) hd (by decide)
  have h1 : ¬ n.dec = g!"New" ++ n.dec := length_ne (by simp only [List.length_append, List.length_cons]; omega)
  have h2 : ¬ g!"New" ++ n.dec = n.dec := length_ne (by simp only [List.length_append, List.length_cons]; omega)
  have x1 := fresh_both (a := u.lower d.name ++ g!"DurationSummaryVec") (l := [g!"_", g!"float64", g!"string", g!"nil", g!"apm", g!"promauto", g!"prometheus", g!"time", g!"base", g!"ctx", g!"err", g!"instanceName", g!"span", g!"_d", g!"_span", g!"_ticker", g!"_v", g!"_impl", g!"_res", g!"_cancelFunc", g!"cancelFunc", g!"_since", g!"_counter", g!"result"]) (fresh_suffix (by decide)) (by decide)
  have x3 := sym_ne (a := u.lower d.name ++ g!"DurationSummaryVec") (b := n.dec) (fun e => hvec (by simp [e]))
  have x4 := sym_ne (a := u.lower d.name ++ g!"DurationSummaryVec") (b := g!"New" ++ n.dec) (fun e => hvec (by simp [e]))
  unfold beforePrometheus afterPrometheus fieldsPrometheus
  generalize u.lower d.name ++ g!"DurationSummaryVec" = x at *
  simp at hd h1 h2 x1 x3 x4
  filescope [Sees, beforePrometheus, afterPrometheus, fieldsPrometheus, hd, h1, h2, x1, x3, x4]

theorem file_Opentracing {u : Uni} {d : Inputs} {n : Names} (hd : n.dec ∉ templateNames) :
    FileScoped [] (flatDecls (beforeOpentracing u d n []) ++ flatDecls afterOpentracing) ∧
      fileScope [] (flatDecls (beforeOpentracing u d n []) ++ flatDecls afterOpentracing) n.dec = some .type ∧
      Sees (fileScope [] (flatDecls (beforeOpentracing u d n []) ++ flatDecls afterOpentracing)) [(g!"nil", .value), (g!"true", .value), (g!"string", .type), (g!"opentracing", .pkg), (g!"_ext", .pkg), (g!"_log", .pkg)] ∧
      Clear (fileScope [] (flatDecls (beforeOpentracing u d n []) ++ flatDecls afterOpentracing)) := by
  replace hd := fresh_both (a := n.dec) (l := [g!"_", g!"string", g!"true", g!"nil", g!"len", g!"apm", g!"_ext", g!"_log", g!"opentracing", g!"base", g!"ctx", g!"d", g!"err", g!"instance", g!"span", g!"spanDecorator", g!"_d", g!"_span", g!"_ticker", g!"_v", g!"_impl", g!"_res", g!"_cancelFunc", g!"cancelFunc", g!"_since", g!"_counter", g!"result"]) hd (by decide)
  have h1 : ¬ n.dec = g!"New" ++ n.dec := length_ne (by simp only [List.length_append, List.length_cons]; omega)
  have h2 : ¬ g!"New" ++ n.dec = n.dec := length_ne (by simp only [List.length_append, List.length_cons]; omega)
  unfold beforeOpentracing afterOpentracing fieldsOpentracing
  simp at hd h1 h2
  filescope [Sees, beforeOpentracing, afterOpentracing, fieldsOpentracing, hd, h1, h2]

theorem file_Opencensus {u : Uni} {d : Inputs} {n : Names} (hd : n.dec ∉ templateNames) :
    FileScoped [] (flatDecls (beforeOpencensus u d n []) ++ flatDecls afterOpencensus) ∧
      fileScope [] (flatDecls (beforeOpencensus u d n []) ++ flatDecls afterOpencensus) n.dec = some .type ∧
      Sees (fileScope [] (flatDecls (beforeOpencensus u d n []) ++ flatDecls afterOpencensus)) [(g!"nil", .value), (g!"true", .value), (g!"string", .type), (g!"trace", .pkg)] ∧
      Clear (fileScope [] (flatDecls (beforeOpencensus u d n []) ++ flatDecls afterOpencensus)) := by
  replace hd := fresh_both (a := n.dec) (l := [g!"_", g!"string", g!"true", g!"nil", g!"len", g!"apm", g!"trace", g!"base", g!"ctx", g!"d", g!"err", g!"instance", g!"span", g!"spanDecorator", g!"_d", g!"_span", g!"_ticker", g!"_v", g!"_impl", g!"_res", g!"_cancelFunc", g!"cancelFunc", g!"_since", g!"_counter", g!"result"]) hd (by decide)
  have h1 : ¬ n.dec = g!"New" ++ n.dec := length_ne (by simp only [List.length_append, List.length_cons]; omega)
  have h2 : ¬ g!"New" ++ n.dec = n.dec := length_ne (by simp only [List.length_append, List.length_cons]; omega)
  unfold beforeOpencensus afterOpencensus fieldsOpencensus
  simp at hd h1 h2
  filescope [Sees, beforeOpencensus, afterOpencensus, fieldsOpencensus, hd, h1, h2]

theorem file_Opentelemetry {u : Uni} {d : Inputs} {n : Names} (hd : n.dec ∉ templateNames) :
    FileScoped [] (flatDecls (beforeOpentelemetry u d n []) ++ flatDecls afterOpentelemetry) ∧
      fileScope [] (flatDecls (beforeOpentelemetry u d n []) ++ flatDecls afterOpentelemetry) n.dec = some .type ∧
      Sees (fileScope [] (flatDecls (beforeOpentelemetry u d n []) ++ flatDecls afterOpentelemetry)) [(g!"nil", .value), (g!"true", .value), (g!"string", .type), (g!"otel", .pkg), (g!"_codes", .pkg), (g!"attribute", .pkg)] ∧
      Clear (fileScope [] (flatDecls (beforeOpentelemetry u d n []) ++ flatDecls afterOpentelemetry)) := by
  replace hd := fresh_both (a := n.dec) (l := [g!"_", g!"string", g!"true", g!"nil", g!"len", g!"apm", g!"attribute", g!"_codes", g!"context", g!"otel", g!"trace", g!"base", g!"ctx", g!"d", g!"err", g!"instance", g!"span", g!"spanDecorator", g!"_d", g!"_span", g!"_ticker", g!"_v", g!"_impl", g!"_res", g!"_cancelFunc", g!"cancelFunc", g!"_since", g!"_counter", g!"result"]) hd (by decide)
  have h1 : ¬ n.dec = g!"New" ++ n.dec := length_ne (by simp only [List.length_append, List.length_cons]; omega)
  have h2 : ¬ g!"New" ++ n.dec = n.dec := length_ne (by simp only [List.length_append, List.length_cons]; omega)
  unfold beforeOpentelemetry afterOpentelemetry fieldsOpentelemetry
  simp at hd h1 h2
  filescope [Sees, beforeOpentelemetry, afterOpentelemetry, fieldsOpentelemetry, hd, h1, h2]

theorem file_Elasticapm {u : Uni} {d : Inputs} {n : Names} (hd : n.dec ∉ templateNames) (ho : n.option = n.dec ++ g!"Option") :
    FileScoped [] (flatDecls (beforeElasticapm u d n []) ++ flatDecls afterElasticapm) ∧
      fileScope [] (flatDecls (beforeElasticapm u d n []) ++ flatDecls afterElasticapm) n.dec = some .type ∧
      Sees (fileScope [] (flatDecls (beforeElasticapm u d n []) ++ flatDecls afterElasticapm)) [(g!"nil", .value)] ∧
      Clear (fileScope [] (flatDecls (beforeElasticapm u d n []) ++ flatDecls afterElasticapm)) := by
  replace hd := fresh_both (a := n.dec) (l := [g!"_", g!"error", g!"string", g!"nil", g!"apm", g!"context", g!"base", g!"ctx", g!"err", g!"fn", g!"key", g!"opts", g!"r", g!"span", g!"spanType", g!"v", g!"value", g!"_d", g!"_span", g!"_ticker", g!"_v", g!"_impl", g!"_res", g!"_cancelFunc", g!"cancelFunc", g!"_since", g!"_counter", g!"result"]) hd (by decide)
  have h1 : ¬ n.dec = g!"New" ++ n.dec := length_ne (by simp only [List.length_append, List.length_cons]; omega)
  have h2 : ¬ g!"New" ++ n.dec = n.dec := length_ne (by simp only [List.length_append, List.length_cons]; omega)
  have x1 := fresh_both (a := n.dec ++ g!"Option") (l := [g!"_", g!"error", g!"string", g!"nil", g!"apm", g!"context", g!"base", g!"ctx", g!"err", g!"fn", g!"key", g!"opts", g!"r", g!"span", g!"spanType", g!"v", g!"value", g!"_d", g!"_span", g!"_ticker", g!"_v", g!"_impl", g!"_res", g!"_cancelFunc", g!"cancelFunc", g!"_since", g!"_counter", g!"result"]) (fresh_suffix (by decide)) (by decide)
  have x3 := sym_ne (a := n.dec ++ g!"Option") (b := n.dec) (length_ne (by simp only [List.length_append, List.length_cons, List.length_nil]; omega))
  have x4 := sym_ne (a := n.dec ++ g!"Option") (b := g!"New" ++ n.dec) (length_ne (by simp only [List.length_append, List.length_cons, List.length_nil]; omega))
  have y1 := fresh_both (a := n.dec ++ g!"WithUsingSetLabel") (l := [g!"_", g!"error", g!"string", g!"nil", g!"apm", g!"context", g!"base", g!"ctx", g!"err", g!"fn", g!"key", g!"opts", g!"r", g!"span", g!"spanType", g!"v", g!"value", g!"_d", g!"_span", g!"_ticker", g!"_v", g!"_impl", g!"_res", g!"_cancelFunc", g!"cancelFunc", g!"_since", g!"_counter", g!"result"]) (fresh_suffix (by decide)) (by decide)
  have y3 := sym_ne (a := n.dec ++ g!"WithUsingSetLabel") (b := n.dec) (length_ne (by simp only [List.length_append, List.length_cons, List.length_nil]; omega))
  have y4 := sym_ne (a := n.dec ++ g!"WithUsingSetLabel") (b := g!"New" ++ n.dec) (length_ne (by simp only [List.length_append, List.length_cons, List.length_nil]; omega))
  have yx := sym_ne (a := n.dec ++ g!"WithUsingSetLabel") (b := n.dec ++ g!"Option") (length_ne (by simp only [List.length_append, List.length_cons, List.length_nil]; omega))
  have z1 := fresh_both (a := n.dec ++ g!"WithSpanType") (l := [g!"_", g!"error", g!"string", g!"nil", g!"apm", g!"context", g!"base", g!"ctx", g!"err", g!"fn", g!"key", g!"opts", g!"r", g!"span", g!"spanType", g!"v", g!"value", g!"_d", g!"_span", g!"_ticker", g!"_v", g!"_impl", g!"_res", g!"_cancelFunc", g!"cancelFunc", g!"_since", g!"_counter", g!"result"]) (fresh_suffix (by decide)) (by decide)
  have z3 := sym_ne (a := n.dec ++ g!"WithSpanType") (b := n.dec) (length_ne (by simp only [List.length_append, List.length_cons, List.length_nil]; omega))
  have z4 := sym_ne (a := n.dec ++ g!"WithSpanType") (b := g!"New" ++ n.dec) (length_ne (by simp only [List.length_append, List.length_cons, List.length_nil]; omega))
  have zx := sym_ne (a := n.dec ++ g!"WithSpanType") (b := n.dec ++ g!"Option") (length_ne (by simp only [List.length_append, List.length_cons, List.length_nil]; omega))
  have zy := sym_ne (a := n.dec ++ g!"WithSpanType") (b := n.dec ++ g!"WithUsingSetLabel") (length_ne (by simp only [List.length_append, List.length_cons, List.length_nil]; omega))
  rw [show flatDecls (beforeElasticapm u d n []) = flatDecls (beforeElasticapm u d ⟨n.dec, n.dec ++ g!"Option", n.component, n.metric, n.span⟩ []) by unfold beforeElasticapm; rw [ho]; rfl]
  unfold beforeElasticapm afterElasticapm fieldsElasticapm
  generalize n.dec ++ g!"Option" = x at *
  generalize n.dec ++ g!"WithUsingSetLabel" = y at *
  generalize n.dec ++ g!"WithSpanType" = z at *
  simp at hd h1 h2 x1 x3 x4 y1 y3 y4 yx z1 z3 z4 zx zy
  filescope [Sees, beforeElasticapm, afterElasticapm, fieldsElasticapm, hd, h1, h2, x1, x3, x4, y1, y3, y4, yx, z1, z3, z4, zx, zy]

theorem file_Validate {u : Uni} {d : Inputs} {n : Names} (hd : n.dec ∉ templateNames) :
    FileScoped [] (flatDecls (beforeValidate u d n []) ++ flatDecls afterValidate) ∧
      fileScope [] (flatDecls (beforeValidate u d n []) ++ flatDecls afterValidate) n.dec = some .type ∧
      Sees (fileScope [] (flatDecls (beforeValidate u d n []) ++ flatDecls afterValidate)) [(g!"nil", .value), (g!"error", .type)] ∧
      Clear (fileScope [] (flatDecls (beforeValidate u d n []) ++ flatDecls afterValidate)) := by
  replace hd := fresh_both (a := n.dec) (l := [g!"_", g!"error", g!"nil", g!"apm", g!"base", g!"ctx", g!"err", g!"span", g!"_d", g!"_span", g!"_ticker", g!"_v", g!"_impl", g!"_res", g!"_cancelFunc", g!"cancelFunc", g!"_since", g!"_counter", g!"result"]) hd (by decide)
  have h1 : ¬ n.dec = g!"New" ++ n.dec := length_ne (by simp only [List.length_append, List.length_cons]; omega)
  have h2 : ¬ g!"New" ++ n.dec = n.dec := length_ne (by simp only [List.length_append, List.length_cons]; omega)
  unfold beforeValidate afterValidate fieldsValidate
  simp at hd h1 h2
  filescope [Sees, beforeValidate, afterValidate, fieldsValidate, hd, h1, h2]

theorem file_TwirpValidate {u : Uni} {d : Inputs} {n : Names} (hd : n.dec ∉ templateNames) :
    FileScoped [] (flatDecls (beforeTwirpValidate u d n []) ++ flatDecls afterTwirpValidate) ∧
      fileScope [] (flatDecls (beforeTwirpValidate u d n []) ++ flatDecls afterTwirpValidate) n.dec = some .type ∧
      Sees (fileScope [] (flatDecls (beforeTwirpValidate u d n []) ++ flatDecls afterTwirpValidate)) [(g!"nil", .value), (g!"error", .type), (g!"twirp", .pkg)] ∧
      Clear (fileScope [] (flatDecls (beforeTwirpValidate u d n []) ++ flatDecls afterTwirpValidate)) := by
  replace hd := fresh_both (a := n.dec) (l := [g!"_", g!"error", g!"nil", g!"apm", g!"twirp", g!"base", g!"ctx", g!"err", g!"span", g!"_d", g!"_span", g!"_ticker", g!"_v", g!"_impl", g!"_res", g!"_cancelFunc", g!"cancelFunc", g!"_since", g!"_counter", g!"result"]) hd (by decide)
  have h1 : ¬ n.dec = g!"New" ++ n.dec := length_ne (by simp only [List.length_append, List.length_cons]; omega)
  have h2 : ¬ g!"New" ++ n.dec = n.dec := length_ne (by simp only [List.length_append, List.length_cons]; omega)
  unfold beforeTwirpValidate afterTwirpValidate fieldsTwirpValidate
  simp at hd h1 h2
  filescope [Sees, beforeTwirpValidate, afterTwirpValidate, fieldsTwirpValidate, hd, h1, h2]

theorem file_GrpcValidate {u : Uni} {d : Inputs} {n : Names} (hd : n.dec ∉ templateNames) :
    FileScoped [] (flatDecls (beforeGrpcValidate u d n []) ++ flatDecls afterGrpcValidate) ∧
      fileScope [] (flatDecls (beforeGrpcValidate u d n []) ++ flatDecls afterGrpcValidate) n.dec = some .type ∧
      Sees (fileScope [] (flatDecls (beforeGrpcValidate u d n []) ++ flatDecls afterGrpcValidate)) [(g!"nil", .value), (g!"error", .type), (g!"grpc_codes", .pkg), (g!"grpc_status", .pkg)] ∧
      Clear (fileScope [] (flatDecls (beforeGrpcValidate u d n []) ++ flatDecls afterGrpcValidate)) := by
  replace hd := fresh_both (a := n.dec) (l := [g!"_", g!"error", g!"nil", g!"apm", g!"grpc_codes", g!"grpc_status", g!"base", g!"ctx", g!"err", g!"span", g!"_d", g!"_span", g!"_ticker", g!"_v", g!"_impl", g!"_res", g!"_cancelFunc", g!"cancelFunc", g!"_since", g!"_counter", g!"result"]) hd (by decide)
  have h1 : ¬ n.dec = g!"New" ++ n.dec := length_ne (by simp only [List.length_append, List.length_cons]; omega)
  have h2 : ¬ g!"New" ++ n.dec = n.dec := length_ne (by simp only [List.length_append, List.length_cons]; omega)
  unfold beforeGrpcValidate afterGrpcValidate fieldsGrpcValidate
  simp at hd h1 h2
  filescope [Sees, beforeGrpcValidate, afterGrpcValidate, fieldsGrpcValidate, hd, h1, h2]

theorem file_TwirpError {u : Uni} {d : Inputs} {n : Names} (hd : n.dec ∉ templateNames) :
    FileScoped [g!"json"] (flatDecls (beforeTwirpError u d n []) ++ flatDecls afterTwirpError) ∧
      fileScope [g!"json"] (flatDecls (beforeTwirpError u d n []) ++ flatDecls afterTwirpError) n.dec = some .type ∧
      Sees (fileScope [g!"json"] (flatDecls (beforeTwirpError u d n []) ++ flatDecls afterTwirpError)) [(g!"injectRequestDataToError", .value)] ∧
      Clear (fileScope [g!"json"] (flatDecls (beforeTwirpError u d n []) ++ flatDecls afterTwirpError)) := by
  replace hd := fresh_both (a := n.dec) (l := [g!"_", g!"error", g!"string", g!"nil", g!"apm", g!"json", g!"twirp", g!"base", g!"ctx", g!"err", g!"jsonReq", g!"ok", g!"perr", g!"req", g!"span", g!"twerr", g!"injectRequestDataToError", g!"_d", g!"_span", g!"_ticker", g!"_v", g!"_impl", g!"_res", g!"_cancelFunc", g!"cancelFunc", g!"_since", g!"_counter", g!"result"]) hd (by decide)
  have h1 : ¬ n.dec = g!"New" ++ n.dec := length_ne (by simp only [List.length_append, List.length_cons]; omega)
  have h2 : ¬ g!"New" ++ n.dec = n.dec := length_ne (by simp only [List.length_append, List.length_cons]; omega)
  unfold beforeTwirpError afterTwirpError fieldsTwirpError
  simp at hd h1 h2
  filescope [Sees, beforeTwirpError, afterTwirpError, fieldsTwirpError, hd, h1, h2]

theorem file_Timeout {u : Uni} {d : Inputs} {n : Names} (hd : n.dec ∉ templateNames) {config : List FieldDecl} (hc : ∀ v, v g!"time" = some .pkg → ∀ f ∈ flatFields config, f.Scoped v) :
    FileScoped [] (flatDecls (beforeTimeout u d n config) ++ flatDecls afterTimeout) ∧
      fileScope [] (flatDecls (beforeTimeout u d n config) ++ flatDecls afterTimeout) n.dec = some .type ∧
      Sees (fileScope [] (flatDecls (beforeTimeout u d n config) ++ flatDecls afterTimeout)) [(g!"context", .pkg)] ∧
      Clear (fileScope [] (flatDecls (beforeTimeout u d n config) ++ flatDecls afterTimeout)) := by
  replace hd := fresh_both (a := n.dec) (l := [g!"_", g!"apm", g!"context", g!"time", g!"base", g!"config", g!"ctx", g!"err", g!"span", g!"_d", g!"_span", g!"_ticker", g!"_v", g!"_impl", g!"_res", g!"_cancelFunc", g!"cancelFunc", g!"_since", g!"_counter", g!"result"]) hd (by decide)
  have h1 : ¬ n.dec = g!"New" ++ n.dec := length_ne (by simp only [List.length_append, List.length_cons]; omega)
  have h2 : ¬ g!"New" ++ n.dec = n.dec := length_ne (by simp only [List.length_append, List.length_cons]; omega)
  have x1 := fresh_both (a := n.dec ++ g!"Config") (l := [g!"_", g!"apm", g!"context", g!"time", g!"base", g!"config", g!"ctx", g!"err", g!"span", g!"_d", g!"_span", g!"_ticker", g!"_v", g!"_impl", g!"_res", g!"_cancelFunc", g!"cancelFunc", g!"_since", g!"_counter", g!"result"]) (fresh_suffix (by decide)) (by decide)
  have x3 := sym_ne (a := n.dec ++ g!"Config") (b := n.dec) (length_ne (by simp only [List.length_append, List.length_cons, List.length_nil]; omega))
  have x4 := sym_ne (a := n.dec ++ g!"Config") (b := g!"New" ++ n.dec) (length_ne (by simp only [List.length_append, List.length_cons, List.length_nil]; omega))
  unfold beforeTimeout afterTimeout fieldsTimeout
  generalize n.dec ++ g!"Config" = x at *
  simp at hd h1 h2 x1 x3 x4
  filescope [Sees, beforeTimeout, afterTimeout, fieldsTimeout, hd, h1, h2, x1, x3, x4]
  exact fun f hf => hc _ (by simp [Tmpl.Visible.add_apply, hd, x1]) f hf

theorem file_Circuitbreaker {u : Uni} {d : Inputs} {n : Names} (hd : n.dec ∉ templateNames) :
    FileScoped [] (flatDecls (beforeCircuitbreaker u d n []) ++ flatDecls afterCircuitbreaker) ∧
      fileScope [] (flatDecls (beforeCircuitbreaker u d n []) ++ flatDecls afterCircuitbreaker) n.dec = some .type ∧
      Sees (fileScope [] (flatDecls (beforeCircuitbreaker u d n []) ++ flatDecls afterCircuitbreaker)) [(g!"nil", .value), (g!"errors", .pkg), (g!"time", .pkg)] ∧
      Clear (fileScope [] (flatDecls (beforeCircuitbreaker u d n []) ++ flatDecls afterCircuitbreaker)) := by
  replace hd := fresh_both (a := n.dec) (l := [g!"_", g!"error", g!"int", g!"nil", g!"apm", g!"errors", g!"sync", g!"time", g!"base", g!"consecutiveErrors", g!"ctx", g!"err", g!"ignoreErrors", g!"openInterval", g!"span", g!"_d", g!"_span", g!"_ticker", g!"_v", g!"_impl", g!"_res", g!"_cancelFunc", g!"cancelFunc", g!"_since", g!"_counter", g!"result"]) hd (by decide)
  have h1 : ¬ n.dec = g!"New" ++ n.dec := length_ne (by simp only [List.length_append, List.length_cons]; omega)
  have h2 : ¬ g!"New" ++ n.dec = n.dec := length_ne (by simp only [List.length_append, List.length_cons]; omega)
  unfold beforeCircuitbreaker afterCircuitbreaker fieldsCircuitbreaker
  simp at hd h1 h2
  filescope [Sees, beforeCircuitbreaker, afterCircuitbreaker, fieldsCircuitbreaker, hd, h1, h2]

theorem file_Retry {u : Uni} {d : Inputs} {n : Names} (hd : n.dec ∉ templateNames) :
    FileScoped [] (flatDecls (beforeRetry u d n []) ++ flatDecls afterRetry) ∧
      fileScope [] (flatDecls (beforeRetry u d n []) ++ flatDecls afterRetry) n.dec = some .type ∧
      Sees (fileScope [] (flatDecls (beforeRetry u d n []) ++ flatDecls afterRetry)) [(g!"nil", .value), (g!"time", .pkg)] ∧
      Clear (fileScope [] (flatDecls (beforeRetry u d n []) ++ flatDecls afterRetry)) := by
  replace hd := fresh_both (a := n.dec) (l := [g!"_", g!"int", g!"nil", g!"apm", g!"time", g!"base", g!"ctx", g!"err", g!"retryCount", g!"retryInterval", g!"span", g!"_d", g!"_span", g!"_ticker", g!"_v", g!"_impl", g!"_res", g!"_cancelFunc", g!"cancelFunc", g!"_since", g!"_counter", g!"result"]) hd (by decide)
  have h1 : ¬ n.dec = g!"New" ++ n.dec := length_ne (by simp only [List.length_append, List.length_cons]; omega)
  have h2 : ¬ g!"New" ++ n.dec = n.dec := length_ne (by simp only [List.length_append, List.length_cons]; omega)
  unfold beforeRetry afterRetry fieldsRetry
  simp at hd h1 h2
  filescope [Sees, beforeRetry, afterRetry, fieldsRetry, hd, h1, h2]

theorem file_Ratelimit {u : Uni} {d : Inputs} {n : Names} (hd : n.dec ∉ templateNames) :
    FileScoped [] (flatDecls (beforeRatelimit u d n []) ++ flatDecls afterRatelimit) ∧
      fileScope [] (flatDecls (beforeRatelimit u d n []) ++ flatDecls afterRatelimit) n.dec = some .type ∧
      Sees (fileScope [] (flatDecls (beforeRatelimit u d n []) ++ flatDecls afterRatelimit)) [] ∧
      Clear (fileScope [] (flatDecls (beforeRatelimit u d n []) ++ flatDecls afterRatelimit)) := by
  replace hd := fresh_both (a := n.dec) (l := [g!"_", g!"float64", g!"int", g!"make", g!"apm", g!"time", g!"base", g!"burst", g!"ctx", g!"d", g!"delay", g!"err", g!"i", g!"now", g!"rps", g!"span", g!"t", g!"_d", g!"_span", g!"_ticker", g!"_v", g!"_impl", g!"_res", g!"_cancelFunc", g!"cancelFunc", g!"_since", g!"_counter", g!"result"]) hd (by decide)
  have h1 : ¬ n.dec = g!"New" ++ n.dec := length_ne (by simp only [List.length_append, List.length_cons]; omega)
  have h2 : ¬ g!"New" ++ n.dec = n.dec := length_ne (by simp only [List.length_append, List.length_cons]; omega)
  unfold beforeRatelimit afterRatelimit fieldsRatelimit
  simp at hd h1 h2
  filescope [Sees, beforeRatelimit, afterRatelimit, fieldsRatelimit, hd, h1, h2]

theorem file_Robinpool {u : Uni} {d : Inputs} {n : Names} (hd : n.dec ∉ templateNames) :
    FileScoped [] (flatDecls (beforeRobinpool u d n []) ++ flatDecls afterRobinpool) ∧
      fileScope [] (flatDecls (beforeRobinpool u d n []) ++ flatDecls afterRobinpool) n.dec = some .type ∧
      Sees (fileScope [] (flatDecls (beforeRobinpool u d n []) ++ flatDecls afterRobinpool)) [(g!"atomic", .pkg)] ∧
      Clear (fileScope [] (flatDecls (beforeRobinpool u d n []) ++ flatDecls afterRobinpool)) := by
  replace hd := fresh_both (a := n.dec) (l := [g!"_", g!"error", g!"uint32", g!"nil", g!"len", g!"panic", g!"apm", g!"atomic", g!"errors", g!"ctx", g!"err", g!"pool", g!"span", g!"_d", g!"_span", g!"_ticker", g!"_v", g!"_impl", g!"_res", g!"_cancelFunc", g!"cancelFunc", g!"_since", g!"_counter", g!"result"]) hd (by decide)
  have h1 : ¬ n.dec = g!"New" ++ n.dec := length_ne (by simp only [List.length_append, List.length_cons]; omega)
  have h2 : ¬ g!"New" ++ n.dec = n.dec := length_ne (by simp only [List.length_append, List.length_cons]; omega)
  have x1 := fresh_both (a := g!"MustNew" ++ n.dec) (l := [g!"_", g!"error", g!"uint32", g!"nil", g!"len", g!"panic", g!"apm", g!"atomic", g!"errors", g!"ctx", g!"err", g!"pool", g!"span", g!"_d", g!"_span", g!"_ticker", g!"_v", g!"_impl", g!"_res", g!"_cancelFunc", g!"cancelFunc", g!"_since", g!"_counter", g!"result"]) (fresh_must) (by decide)
  have x3 := sym_ne (a := g!"MustNew" ++ n.dec) (b := n.dec) (length_ne (by simp only [List.length_append, List.length_cons, List.length_nil]; omega))
  have x4 := sym_ne (a := g!"MustNew" ++ n.dec) (b := g!"New" ++ n.dec) (length_ne (by simp only [List.length_append, List.length_cons, List.length_nil]; omega))
  simp at hd h1 h2 x1 x3 x4
  filescope [Sees, beforeRobinpool, afterRobinpool, fieldsRobinpool, hd, h1, h2, x1, x3, x4]

theorem file_Syncpool {u : Uni} {d : Inputs} {n : Names} (hd : n.dec ∉ templateNames) :
    FileScoped [] (flatDecls (beforeSyncpool u d n []) ++ flatDecls afterSyncpool) ∧
      fileScope [] (flatDecls (beforeSyncpool u d n []) ++ flatDecls afterSyncpool) n.dec = some .type ∧
      Sees (fileScope [] (flatDecls (beforeSyncpool u d n []) ++ flatDecls afterSyncpool)) [] ∧
      Clear (fileScope [] (flatDecls (beforeSyncpool u d n []) ++ flatDecls afterSyncpool)) := by
  replace hd := fresh_both (a := n.dec) (l := [g!"_", g!"len", g!"make", g!"panic", g!"apm", g!"ctx", g!"err", g!"i", g!"impls", g!"pool", g!"span", g!"_d", g!"_span", g!"_ticker", g!"_v", g!"_impl", g!"_res", g!"_cancelFunc", g!"cancelFunc", g!"_since", g!"_counter", g!"result"]) hd (by decide)
  have h1 : ¬ n.dec = g!"New" ++ n.dec := length_ne (by simp only [List.length_append, List.length_cons]; omega)
  have h2 : ¬ g!"New" ++ n.dec = n.dec := length_ne (by simp only [List.length_append, List.length_cons]; omega)
  unfold beforeSyncpool afterSyncpool fieldsSyncpool
  simp at hd h1 h2
  filescope [Sees, beforeSyncpool, afterSyncpool, fieldsSyncpool, hd, h1, h2]

theorem file_Fallback {u : Uni} {d : Inputs} {n : Names} (hd : n.dec ∉ templateNames) :
    FileScoped [g!"context"] (flatDecls (beforeFallback u d n []) ++ flatDecls afterFallback) ∧
      fileScope [g!"context"] (flatDecls (beforeFallback u d n []) ++ flatDecls afterFallback) n.dec = some .type ∧
      Sees (fileScope [g!"context"] (flatDecls (beforeFallback u d n []) ++ flatDecls afterFallback)) [(g!"nil", .value), (g!"len", .value), (g!"append", .value), (g!"make", .value), (g!"string", .type), (g!"time", .pkg), (g!"context", .pkg), (g!"fmt", .pkg), (g!"errors", .pkg), (g!"strings", .pkg)] ∧
      Clear (fileScope [g!"context"] (flatDecls (beforeFallback u d n []) ++ flatDecls afterFallback)) := by
  replace hd := fresh_both (a := n.dec) (l := [g!"_", g!"string", g!"nil", g!"append", g!"len", g!"make", g!"apm", g!"context", g!"errors", g!"fmt", g!"strings", g!"time", g!"ctx", g!"err", g!"impls", g!"interval", g!"span", g!"_d", g!"_span", g!"_ticker", g!"_v", g!"_impl", g!"_res", g!"_cancelFunc", g!"cancelFunc", g!"_since", g!"_counter", g!"result"]) hd (by decide)
  have h1 : ¬ n.dec = g!"New" ++ n.dec := length_ne (by simp only [List.length_append, List.length_cons]; omega)
  have h2 : ¬ g!"New" ++ n.dec = n.dec := length_ne (by simp only [List.length_append, List.length_cons]; omega)
  unfold beforeFallback afterFallback fieldsFallback
  simp at hd h1 h2
  filescope [Sees, beforeFallback, afterFallback, fieldsFallback, hd, h1, h2]

end Gowrap.Tmpl

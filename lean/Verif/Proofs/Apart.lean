import Verif.Spec.Shared
import Verif.Proofs.ScopeAll
/-!
# The generated functions share no memory that changes
-/

namespace Gowrap.Tmpl

open Gowrap Go Spec

theorem keepsAny_iff {own : List Str} {l : List Go.Expr} : keepsAny own l = true ↔ ∀ e ∈ l, e.keeps own = true := by
  induction l with
  | nil => simp [keepsAny]
  | cons e l ih => simp [keepsAny, ih]

theorem keeps_ids (own : List Str) (ps : List Param) : keepsAny own (idExprs ps) = true := by
  rw [keepsAny_iff]
  intro e he
  obtain ⟨p, _, rfl⟩ := List.mem_map.mp he
  rfl

theorem keeps_args (own : List Str) (ps : List Param) : keepsAny own (ps.map argExpr) = true := by
  rw [keepsAny_iff]
  intro e he
  obtain ⟨p, _, rfl⟩ := List.mem_map.mp he
  unfold argExpr
  split <;> rfl

theorem keeps_res (own : List Str) (ps : List Param) : keepsAny own (resExprs ps) = true := by
  rw [keepsAny_iff]
  intro e he
  obtain ⟨p, _, rfl⟩ := List.mem_map.mp he
  rfl

theorem keeps_map (own : List Str) (ps : List Param) : (mapExpr ps).keeps own = true := by
  unfold mapExpr
  rw [Expr.keeps, keepsAny_iff]
  intro e he
  obtain ⟨p, _, rfl⟩ := List.mem_map.mp he
  rfl

theorem keeps_pass (own : List Str) (recv : Go.Expr) (m : Method) : keepsIn own (passStmts recv m) = recv.keeps own := by
  unfold passStmts
  cases m.hasResults <;> simp [keepsIn, Stmt.keeps, keepsAny, Expr.keeps, keeps_args]

theorem introducedBy_nil {l : List Stmt} (h : ∀ s ∈ l, s.introduces = []) : introducedBy l = [] := by
  induction l with
  | nil => rfl
  | cons s l ih =>
    rw [introducedBy, h s (.head _), ih (fun t ht => h t (.tail _ ht))]
    rfl

/-- Statements that declare nothing. -/
theorem keepsIn_all {own : List Str} {l : List Stmt} (h : ∀ s ∈ l, s.introduces = [] ∧ s.keeps own = true) : keepsIn own l = true := by
  induction l with
  | nil => rfl
  | cons s l ih =>
    rw [keepsIn, (h s (.head _)).1, (h s (.head _)).2, List.nil_append, ih (fun t ht => h t (.tail _ ht))]
    rfl

theorem keeps_loop {own : List Str} {f : Param → List Stmt} (ps : List Param) (h : ∀ p, ∀ s ∈ f p, s.introduces = [] ∧ s.keeps own = true) :
    keepsIn own (ps.flatMap f) = true ∧ introducedBy (ps.flatMap f) = [] := by
  have h' : ∀ s ∈ ps.flatMap f, s.introduces = [] ∧ s.keeps own = true := by
    intro s hs
    obtain ⟨p, _, hp⟩ := List.mem_flatMap.mp hs
    exact h p s hp
  exact ⟨keepsIn_all h', introducedBy_nil fun s hs => (h' s hs).1⟩

theorem own_ids {own : List Str} {ps : List Param} (h : ∀ p ∈ ps, p.name ∈ own) : ownTargets own (idExprs ps) = true := by
  induction ps with
  | nil => rfl
  | cons p ps ih => simp [idExprs, ownTargets, Expr.ownTarget, h p (.head _)]; exact ih (fun q hq => h q (.tail _ hq))

macro "keeps" "[" l:Lean.Parser.Tactic.simpLemma,* "]" : tactic =>
  `(tactic| simp [keepsIn, Stmt.keeps, Expr.keeps, keepsAny, keepsClauses, Expr.ownTarget, ownTargets, Expr.ownMemory, Expr.isAtomic, keeps_ids, keeps_args, keeps_res,
      keeps_map, keeps_pass, Stmt.introduces, introducedBy, idNames, Expr.idNames, idNames_ids, boundNames, Group.names, Results.names,
      callE, dotE, fieldE, deferS, notNilE, anyList, errMsg, callExpr, $l,*])

variable (m : Method)

/-- The variables that belong to a call of the method. -/
def ownNames : List Str := m.params.map (·.name) ++ m.results.map (·.name)

variable {m}

theorem own_err (hn : NamedMethod m) (h : m.returnsError = true) : g!"err" ∈ ownNames m := by
  obtain ⟨p, hp, hx⟩ := hn.err h
  exact List.mem_append_right _ (List.mem_map.mpr ⟨p, hp, hx⟩)

theorem own_ctx (hm : GoMethod m) (h : m.acceptsContext = true) : g!"ctx" ∈ ownNames m := by
  obtain ⟨p, ps, hp, hx⟩ := hm.ctx h
  exact List.mem_append_left _ (List.mem_map.mpr ⟨p, by rw [hp]; exact .head _, hx⟩)

theorem own_results {own : List Str} (h : ∀ x ∈ ownNames m, x ∈ own) : ownTargets own (idExprs m.results) = true :=
  own_ids fun p hp => h _ (List.mem_append_right _ (List.mem_map.mpr ⟨p, hp, rfl⟩))

theorem log_keeps (n : Names) : keepsIn (ownNames m) (logStmts n m) = true := by
  unfold logStmts logBefore logAfter
  cases m.hasParams <;> cases m.hasResults <;> cases m.returnsError <;> keeps []

theorem logrus_keeps (n : Names) : keepsIn (ownNames m) (logrusStmts n m) = true := by
  unfold logrusStmts logrusBefore logrusAfter
  cases m.hasParams <;> cases m.hasResults <;> cases m.returnsError <;> keeps [logrusLine]

theorem prometheus_keeps (vec : Str) : keepsIn (ownNames m) (prometheusStmts vec m) = true := by
  unfold prometheusStmts prometheusAfter ifErrStmts
  cases m.returnsError <;> keeps []

theorem opentracing_keeps (a b : Str) : keepsIn (ownNames m) (openTracingStmts a b m) = true := by
  unfold openTracingStmts tracingAfter
  cases m.returnsError <;> keeps [openTracingErrorS, spanDecoratorS]

theorem opencensus_keeps (a b : Str) : keepsIn (ownNames m) (openCensusStmts a b m) = true := by
  unfold openCensusStmts tracingAfter
  cases m.returnsError <;> keeps [openCensusErrorS, spanDecoratorS]

theorem opentelemetry_keeps (a b : Str) : keepsIn (ownNames m) (openTelemetryStmts a b m) = true := by
  unfold openTelemetryStmts tracingAfter
  cases m.returnsError <;> keeps [openTelemetryErrorS, spanDecoratorS]

theorem apm_keeps (u : Uni) (a : Str) : keepsIn (ownNames m) (apmStmts u a m) = true := by
  have h := fun own => keeps_loop (own := own) (f := apmLabels u) m.params (fun p => by unfold apmLabels; cases Param.isCtx p <;> keeps [apmLabel])
  unfold apmStmts apmAfter
  cases m.returnsError <;> keeps [fun own => (h own).1, fun own => (h own).2]

theorem validate_keeps {onErr : List Stmt} (hn : NamedMethod m) (ho : ∀ own, g!"err" ∈ own → keepsIn own onErr = true) (a : Str) :
    keepsIn (ownNames m) (validateStmts onErr a m) = true := by
  unfold validateStmts
  cases h : m.returnsError
  · keeps []
  · have he := own_err hn h
    have h' := keeps_loop (own := ownNames m) (f := validateLoop onErr m) m.params
      (fun p => by unfold validateLoop; cases m.acceptsContext && Param.isCtx p <;> keeps [validateS, ho, he])
    keeps [h'.1, h'.2]

theorem twirpError_keeps (hn : NamedMethod m) (a : Str) : keepsIn (ownNames m) (twirpErrorStmts a m) = true := by
  unfold twirpErrorStmts
  cases h : m.returnsError
  · keeps []
  · have he := own_err hn h
    have h' := keeps_loop (own := ownNames m) (f := injectLoop m) m.params
      (fun p => by unfold injectLoop; cases m.acceptsContext && Param.isCtx p <;> keeps [injectS, he])
    keeps [h'.1, h'.2]

theorem timeout_keeps (hm : GoMethod m) (hc : m.acceptsContext = true) (a : Str) : keepsIn (ownNames m) (timeoutStmts a m) = true := by
  have := own_ctx hm hc
  unfold timeoutStmts timeoutField
  keeps [this]

theorem retry_keeps (hn : NamedMethod m) (hr : m.returnsError = true) (a : Str) : keepsIn (ownNames m) (retryStmts a m) = true := by
  have := own_err hn hr
  have h : ∀ x xs, ownTargets (x :: xs ++ ownNames m) (idExprs m.results) = true := fun x xs => own_results (fun y hy => List.mem_append_right _ hy)
  have h0 : ownTargets (ownNames m) (idExprs m.results) = true := own_results fun _ h => h
  have h2 : ∀ x y, ownTargets (x :: y :: ownNames m) (idExprs m.results) = true := fun x y => own_results (fun z hz => .tail _ (.tail _ hz))
  unfold retryStmts waitS
  cases m.acceptsContext <;> keeps [callS, moreE, this, h0, h2]

theorem rateLimit_keeps (hn : NamedMethod m) : keepsIn (ownNames m) (rateLimitStmts m) = true := by
  unfold rateLimitStmts
  cases h : m.acceptsContext <;> cases hr : m.returnsError
  · keeps []
  · keeps []
  · keeps []
  · have := own_err hn hr
    keeps [this]

theorem robinPool_keeps : keepsIn (ownNames m) (robinPoolStmts m) = true := by
  unfold robinPoolStmts
  keeps [poolE]

theorem syncPool_keeps : keepsIn (ownNames m) (syncPoolStmts m) = true := by
  unfold syncPoolStmts
  keeps []

theorem err_result (hn : NamedMethod m) (h : m.returnsError = true) : ∃ p ∈ m.results, p.name = g!"err" := hn.err h

theorem fallback_keeps (hn : NamedMethod m) (type : Str) : keepsIn (ownNames m) (fallbackStmts type m) = true := by
  unfold fallbackStmts launcherStmts launchBody childStmts awaitStmts implStmts wrapStmts gotStmts sendStmt recvS doneStmts
  cases m.acceptsContext <;> cases hr : m.returnsError <;> cases m.hasResults <;>
    first
      | (have he := own_err hn hr; keeps [sendChS, doneS, joinE, countE, he])
      | keeps [sendChS, doneS, joinE, countE]

/-! ## Goroutines -/

theorem apartAny_iff {later : List Str} {l : List Go.Expr} : apartAny later l ↔ ∀ e ∈ l, e.Apart later := by
  induction l with
  | nil => simp [apartAny]
  | cons e l ih => simp [apartAny, ih]

theorem apart_ids (later : List Str) (ps : List Param) : apartAny later (idExprs ps) := by
  rw [apartAny_iff]
  intro e he
  obtain ⟨p, _, rfl⟩ := List.mem_map.mp he
  simp [Expr.Apart]

theorem apart_args (later : List Str) (ps : List Param) : apartAny later (ps.map argExpr) := by
  rw [apartAny_iff]
  intro e he
  obtain ⟨p, _, rfl⟩ := List.mem_map.mp he
  unfold argExpr
  split <;> simp [Expr.Apart]

theorem apart_res (later : List Str) (ps : List Param) : apartAny later (resExprs ps) := by
  rw [apartAny_iff]
  intro e he
  obtain ⟨p, _, rfl⟩ := List.mem_map.mp he
  simp [Expr.Apart]

theorem apart_map (later : List Str) (ps : List Param) : (mapExpr ps).Apart later := by
  unfold mapExpr
  rw [Expr.Apart, apartAny_iff]
  intro e he
  obtain ⟨p, _, rfl⟩ := List.mem_map.mp he
  simp [Expr.Apart]

theorem apart_pass (rs later : List Str) (recv : Go.Expr) (m : Method) : apartIn rs later (passStmts recv m) ↔ recv.Apart later := by
  unfold passStmts
  cases m.hasResults <;> simp [apartIn, Stmt.Apart, apartAny, Expr.Apart, apart_args, setsIn, Stmt.sets]

theorem apart_all {rs : List Str} {l : List Stmt} (later : List Str) (h : ∀ s ∈ l, ∀ later, s.Apart rs later) : apartIn rs later l := by
  induction l with
  | nil => simp [apartIn]
  | cons s l ih =>
    rw [apartIn]
    exact ⟨h s (.head _) _, ih (fun t ht => h t (.tail _ ht))⟩

theorem apart_loop {rs : List Str} {f : Param → List Stmt} (ps : List Param) (h : ∀ p, ∀ s ∈ f p, ∀ later, s.Apart rs later) (later : List Str) :
    apartIn rs later (ps.flatMap f) := by
  refine apart_all later fun s hs => ?_
  obtain ⟨p, _, hp⟩ := List.mem_flatMap.mp hs
  exact h p s hp

macro "apart" "[" l:Lean.Parser.Tactic.simpLemma,* "]" : tactic =>
  `(tactic| simp [apartIn, Stmt.Apart, Expr.Apart, apartAny, apartClauses, apart_ids, apart_args, apart_res, apart_map, apart_pass,
      callE, dotE, fieldE, deferS, notNilE, anyList, errMsg, callExpr, $l,*])

variable (m) (rs later : List Str)

theorem log_apart (n : Names) : apartIn rs later (logStmts n m) := by
  unfold logStmts logBefore logAfter
  cases m.hasParams <;> cases m.hasResults <;> cases m.returnsError <;> apart []

theorem logrus_apart (n : Names) : apartIn rs later (logrusStmts n m) := by
  unfold logrusStmts logrusBefore logrusAfter
  cases m.hasParams <;> cases m.hasResults <;> cases m.returnsError <;> apart [logrusLine]

theorem prometheus_apart (vec : Str) : apartIn rs later (prometheusStmts vec m) := by
  unfold prometheusStmts prometheusAfter ifErrStmts
  cases m.returnsError <;> apart []

theorem opentracing_apart (a b : Str) : apartIn rs later (openTracingStmts a b m) := by
  unfold openTracingStmts tracingAfter
  cases m.returnsError <;> apart [openTracingErrorS, spanDecoratorS]

theorem opencensus_apart (a b : Str) : apartIn rs later (openCensusStmts a b m) := by
  unfold openCensusStmts tracingAfter
  cases m.returnsError <;> apart [openCensusErrorS, spanDecoratorS]

theorem opentelemetry_apart (a b : Str) : apartIn rs later (openTelemetryStmts a b m) := by
  unfold openTelemetryStmts tracingAfter
  cases m.returnsError <;> apart [openTelemetryErrorS, spanDecoratorS]

theorem apm_apart (u : Uni) (a : Str) : apartIn rs later (apmStmts u a m) := by
  have h := apart_loop (rs := rs) (f := apmLabels u) m.params (fun p => by unfold apmLabels; cases Param.isCtx p <;> apart [apmLabel])
  unfold apmStmts apmAfter
  cases m.returnsError <;> apart [h]

theorem validate_apart {onErr : List Stmt} (ho : ∀ later, apartIn rs later onErr) (a : Str) : apartIn rs later (validateStmts onErr a m) := by
  have h' := apart_loop (rs := rs) (f := validateLoop onErr m) m.params
    (fun p => by unfold validateLoop; cases m.acceptsContext && Param.isCtx p <;> apart [validateS, ho])
  unfold validateStmts
  cases m.returnsError <;> apart [h']

theorem twirpError_apart (a : Str) : apartIn rs later (twirpErrorStmts a m) := by
  have h' := apart_loop (rs := rs) (f := injectLoop m) m.params
    (fun p => by unfold injectLoop; cases m.acceptsContext && Param.isCtx p <;> apart [injectS])
  unfold twirpErrorStmts
  cases m.returnsError <;> apart [h']

theorem timeout_apart (a : Str) : apartIn rs later (timeoutStmts a m) := by
  unfold timeoutStmts timeoutField
  apart []

theorem breaker_apart (a b : Str) : apartIn rs later (breakerStmts a b m) := by
  unfold breakerStmts attemptStmts
  apart [openStmts, resetStmts, countStmts, ignoreS, lockE]

theorem retry_apart (a : Str) : apartIn rs later (retryStmts a m) := by
  unfold retryStmts waitS
  cases m.acceptsContext <;> apart [callS, moreE]

theorem rateLimit_apart : apartIn rs later (rateLimitStmts m) := by
  unfold rateLimitStmts
  cases m.acceptsContext && m.returnsError <;> apart []

theorem robinPool_apart : apartIn rs later (robinPoolStmts m) := by
  unfold robinPoolStmts
  apart [poolE]

theorem syncPool_apart : apartIn rs later (syncPoolStmts m) := by
  unfold syncPoolStmts
  apart []

/-! ## templates/fallback -/

theorem setsAny_nil {l : List Go.Expr} (h : ∀ e ∈ l, e.sets = []) : setsAny l = [] := by
  induction l with
  | nil => rfl
  | cons e l ih =>
    rw [setsAny, h e (.head _), ih (fun e' he => h e' (.tail _ he))]
    rfl

theorem sets_ids (ps : List Param) : setsAny (idExprs ps) = [] := setsAny_nil fun e he => by
  obtain ⟨p, _, rfl⟩ := List.mem_map.mp he
  rfl

theorem sets_args (ps : List Param) : setsAny (ps.map argExpr) = [] := setsAny_nil fun e he => by
  obtain ⟨p, _, rfl⟩ := List.mem_map.mp he
  unfold argExpr
  split <;> rfl

theorem sets_res (ps : List Param) : setsAny (resExprs ps) = [] := setsAny_nil fun e he => by
  obtain ⟨p, _, rfl⟩ := List.mem_map.mp he
  rfl

theorem roots_ids (ps : List Param) : rootsOf (idExprs ps) = ps.map (·.name) := by
  induction ps with
  | nil => rfl
  | cons p ps ih =>
    unfold idExprs at ih
    simp [idExprs, rootsOf, Expr.roots, ih]

theorem used_args {x : Str} {ps : List Param} (h : ∀ p ∈ ps, p.name ≠ x) : usedByAny x (ps.map argExpr) = false := by
  induction ps with
  | nil => rfl
  | cons p ps ih =>
    rw [List.map_cons, usedByAny, ih (fun q hq => h q (.tail _ hq))]
    have := h p (.head _)
    unfold argExpr
    split <;> simp [Expr.uses, this]

macro "sets" "[" l:Lean.Parser.Tactic.simpLemma,* "]" : tactic =>
  `(tactic| simp [setsIn, Stmt.sets, Expr.sets, setsAny, setsClauses, rootsOf, Expr.roots, sets_ids, sets_args, sets_res, roots_ids, Results.names,
      callE, dotE, fieldE, notNilE, callExpr, $l,*])

variable {m rs later}

/-- The variables that change while the goroutines run. -/
def changed (m : Method) : List Str := [g!"_res", g!"_errorsList", g!"_i"] ++ m.results.map (·.name)

theorem err_changed (hn : NamedMethod m) (h : m.returnsError = true) : g!"err" ∈ changed m := by
  obtain ⟨p, hp, hx⟩ := hn.err h
  exact List.mem_append_right _ (List.mem_map.mpr ⟨p, hp, hx⟩)

theorem result_changed {p : Param} (h : p ∈ m.results) : p.name ∈ changed m := List.mem_append_right _ (List.mem_map.mpr ⟨p, h, rfl⟩)

theorem await_sets (hn : NamedMethod m) : ∀ x ∈ setsIn true (m.results.map (·.name)) (awaitStmts m), x ∈ changed m := by
  have he := err_changed hn
  have hr := fun p (h : p ∈ m.results) => result_changed h
  have h3 : g!"_res" ∈ changed m ∧ g!"_errorsList" ∈ changed m ∧ g!"_i" ∈ changed m := by simp [changed]
  unfold awaitStmts gotStmts recvS doneStmts
  cases m.acceptsContext <;> cases hre : m.returnsError <;> cases m.hasResults <;> simp [hre] at he <;> sets [doneS, joinE, countE] <;> grind

theorem literal_sets (hn : NamedMethod m) (type : Str) : ∀ x ∈ setsIn false (m.results.map (·.name)) (fallbackStmts type m), x ∈ changed m := by
  have he := err_changed hn
  have hr := fun p (h : p ∈ m.results) => result_changed h
  have h3 : g!"_res" ∈ changed m ∧ g!"_errorsList" ∈ changed m ∧ g!"_i" ∈ changed m := by simp [changed]
  unfold fallbackStmts launcherStmts launchBody childStmts awaitStmts implStmts wrapStmts gotStmts sendStmt recvS doneStmts
  cases m.acceptsContext <;> cases hre : m.returnsError <;> cases m.hasResults <;> simp [hre] at he <;> sets [sendChS, doneS, joinE, countE] <;> grind

/-- What the goroutines need of the names. -/
structure Quiet (m : Method) : Prop where
  named : NamedMethod m
  good : GoMethod m
  params : ∀ p ∈ m.params, p.name ∉ [g!"_res", g!"_errorsList", g!"_i"]
  results : ∀ p ∈ m.results, p.name ∉ [g!"_d", g!"_impl", g!"_ch", g!"_next", g!"_ticker", g!"len", g!"fmt"]

theorem param_quiet (h : Quiet m) {x : Str} (hx : x ∈ changed m) : ∀ p ∈ m.params, p.name ≠ x := by
  rintro p hp rfl
  rcases List.mem_append.mp hx with hx | hx
  · exact h.params p hp hx
  · exact (List.nodup_append.mp h.named.distinct).2.2 _ (List.mem_map.mpr ⟨p, hp, rfl⟩) _ hx rfl

macro "used" "[" l:Lean.Parser.Tactic.simpLemma,* "]" : tactic =>
  `(tactic| simp [usedIn, Stmt.uses, Expr.uses, usedByAny, usedByClause, Expr.targetUses, targetsUse, Stmt.introduces, introducedBy, idNames, Expr.idNames,
      idNames_ids, used_ids, boundNames, Group.names, Results.names, callE, dotE, fieldE, notNilE, callExpr, $l,*])

theorem child_unused (h : Quiet m) {x : Str} (hx : x ∈ changed m) : usedIn x false (childStmts m) = false := by
  have ha := used_args (param_quiet h hx)
  have hc : m.acceptsContext = true → g!"ctx" ≠ x := fun hc => by
    obtain ⟨p, ps, hp, hn⟩ := h.good.ctx hc
    exact hn ▸ param_quiet h hx p (by rw [hp]; exact .head _)
  have he := err_result h.named
  have hg := h.good.err
  have hq := h.results
  by_cases hr : x ∈ m.results.map (·.name)
  · obtain ⟨p, hp, rfl⟩ := List.mem_map.mp hr
    have hq := hq p hp
    have hres : m.hasResults = true := by
      unfold Method.hasResults
      cases hm : m.results with
      | nil => rw [hm] at hp; exact nomatch hp
      | cons _ _ => rfl
    unfold childStmts implStmts
    rw [hres]
    simp at hq
    used [ha, hp, hq]
    exact ⟨Ne.symm hq.2.1, fun h' => absurd rfl (h' p hp)⟩
  · have h3 : x ∈ [g!"_res", g!"_errorsList", g!"_i"] := (List.mem_append.mp hx).resolve_right hr
    unfold childStmts implStmts wrapStmts sendStmt
    simp at h3
    cases hac : m.acceptsContext <;> cases hre : m.returnsError <;> cases m.hasResults <;> rcases h3 with rfl | rfl | rfl <;>
      used [ha, sendChS, doneS, hr]

theorem launcher_unused (h : Quiet m) (type : Str) {x : Str} (hx : x ∈ changed m) : usedIn x false (launcherStmts type m) = false := by
  have hc := child_unused h hx
  by_cases hr : x ∈ m.results.map (·.name)
  · obtain ⟨p, hp, rfl⟩ := List.mem_map.mp hr
    have hq := h.results p hp
    simp at hq
    unfold launcherStmts launchBody
    used [hc, countE, hq, fun y => eq_comm (a := y) (b := p.name)]
  · have h3 : x ∈ [g!"_res", g!"_errorsList", g!"_i"] := (List.mem_append.mp hx).resolve_right hr
    simp at h3
    unfold launcherStmts launchBody
    rcases h3 with rfl | rfl | rfl <;> used [hc, countE]

theorem fallback_apart (h : Quiet m) (type : Str) :
    apartIn (m.results.map (·.name)) (setsIn false (m.results.map (·.name)) (fallbackStmts type m)) (fallbackStmts type m) := by
  have hl := literal_sets h.named type
  generalize setsIn false (m.results.map (·.name)) (fallbackStmts type m) = later at hl
  have hw := await_sets h.named
  have hkc : ∀ own, keepsIn (g!"_impl" :: own) (childStmts m) = true := by
    intro own
    unfold childStmts implStmts wrapStmts sendStmt
    cases m.acceptsContext <;> cases hr : m.returnsError <;> cases hs : m.hasResults <;>
      first
        | (have he := err_result h.named hr
           first
             | (keeps [sendChS, doneS, he]; done)
             | (obtain ⟨p, hp, _⟩ := he
                rw [Method.hasResults, decide_eq_false_iff_not, Nat.not_lt, Nat.le_zero, List.length_eq_zero_iff] at hs
                rw [hs] at hp
                exact nomatch hp))
        | keeps [sendChS, doneS]
  have hkl : keepsIn [] (launcherStmts type m) = true := by
    unfold launcherStmts launchBody
    keeps [hkc, countE]
  have hac : ∀ l, apartIn [] l (childStmts m) := by
    intro l
    unfold childStmts implStmts wrapStmts sendStmt
    cases m.acceptsContext <;> cases m.returnsError <;> cases m.hasResults <;> apart [sendChS, doneS]
  have hsl : ∀ rs : List Str, ∀ x ∈ setsIn true rs (launchBody type m), x ∈ changed m := by
    intro rs
    have he := err_changed h.named
    have hr := fun p (h : p ∈ m.results) => result_changed h
    unfold launchBody childStmts implStmts wrapStmts sendStmt
    cases m.acceptsContext <;> cases hre : m.returnsError <;> cases m.hasResults <;> simp [hre] at he <;> sets [sendChS, doneS, joinE, countE] <;> grind
  have hal : ∀ l, (∀ x ∈ l, x ∈ changed m) → apartIn [] l (launcherStmts type m) := by
    intro l hl
    have hch : ∀ x ∈ changed m, usedIn x false (childStmts m) = false := fun x hx => child_unused h hx
    have hi : g!"_i" ∈ changed m := by simp [changed]
    unfold launcherStmts
    have hsl := hsl []
    apart [countE]
    have hL : ∀ x ∈ Stmt.sets true [] (Stmt.inc (.id g!"_i")) ++ (setsIn true [] (launchBody type m) ++ (setsIn true [] [] ++ l)), x ∈ changed m := by
      intro x hx
      simp only [List.mem_append] at hx
      rcases hx with hx | hx | hx | hx
      · simp [Stmt.sets, Expr.roots, Expr.sets] at hx
        exact hx ▸ hi
      · exact hsl x hx
      · exact nomatch hx
      · exact hl x hx
    generalize Stmt.sets true [] (Stmt.inc (.id g!"_i")) ++ (setsIn true [] (launchBody type m) ++ (setsIn true [] [] ++ l)) = L at hL
    unfold launchBody
    apart [countE, hac, hkc, boundNames, Group.names, Results.names]
    sets []
    exact fun x hx _ => hch x (hL x hx)
  have haw : ∀ rs l, apartIn rs l (awaitStmts m) := by
    intro rs l
    unfold awaitStmts gotStmts recvS doneStmts
    cases m.acceptsContext <;> cases m.returnsError <;> cases m.hasResults <;> apart [doneS, joinE, countE]
  have hgo : ∀ x ∈ setsIn true (m.results.map (·.name)) (awaitStmts m) ++ later, x ∈ changed m := by
    intro x hx
    rcases List.mem_append.mp hx with hx | hx
    · exact hw x hx
    · exact hl x hx
  have hmain : apartIn (m.results.map (·.name)) later (.go (.call (.fn [] .none (launcherStmts type m)) [] false) :: awaitStmts m) := by
    simp only [apartIn, Stmt.Apart, apartAny, boundNames, Results.names, List.flatMap_nil, List.append_nil]
    exact ⟨⟨⟨hkl, fun x hx _ => launcher_unused h type (hgo x hx)⟩, hal _ hgo, trivial⟩, haw _ _⟩
  unfold fallbackStmts
  generalize (Stmt.go (.call (.fn [] .none (launcherStmts type m)) [] false) :: awaitStmts m) = rest at hmain
  cases m.acceptsContext <;> cases m.returnsError <;> apart [countE, hmain]

theorem apart_drop {rs later : List Str} {b : List Stmt} : ∀ a : List Stmt, apartIn rs later (a ++ b) → apartIn rs later b
  | [], h => h
  | _ :: a, h => by
    rw [List.cons_append, apartIn] at h
    exact apart_drop a h.2

/-- A parameter `_i` is the counter of the goroutine that starts the others. -/
theorem fallback_counter {p : Param} (hp : p ∈ m.params) (hx : p.name = g!"_i") (type : Str) (rs later : List Str) :
    ¬ apartIn rs later (fallbackStmts type m) := by
  have hu : usedByAny g!"_i" (m.params.map argExpr) = true := by
    clear type rs later
    generalize m.params = l at hp
    induction l with
    | nil => exact absurd hp List.not_mem_nil
    | cons q ps ih =>
      rw [List.map_cons, usedByAny]
      rcases List.mem_cons.mp hp with rfl | hp
      · have : (argExpr p).uses g!"_i" = true := by
          unfold argExpr
          split <;> simp [Expr.uses, hx]
        rw [this]
        rfl
      · rw [ih hp]
        simp
  have hc : usedIn g!"_i" false (childStmts m) = true := by
    unfold childStmts implStmts
    cases m.hasResults <;> used [hu]
  have hgo : ∀ rs later, ¬ apartIn rs later (.go (.call (.fn [] .none (launcherStmts type m)) [] false) :: awaitStmts m) := by
    intro rs later ha
    rw [apartIn, Stmt.Apart] at ha
    have h1 := ha.1.2.1
    unfold launcherStmts at h1
    rw [apartIn, Stmt.Apart] at h1
    have h2 := h1.1.2.2.2
    unfold launchBody at h2
    rw [apartIn, Stmt.Apart] at h2
    have h3 := h2.1.1.2 g!"_i" (by sets []) (by simp [boundNames, Group.names, Results.names])
    rw [hc] at h3
    exact nomatch h3
  intro ha
  unfold fallbackStmts at ha
  exact hgo rs later (apart_drop _ ha)

/-- No function of the file shares memory that changes if no method does. -/
theorem FileShape.apart {u : Uni} {d : Inputs} {text : Str} {ds pre : List Go.Decl} {ty : Ty} {w : Method → Bool} {stmts : Method → List Stmt}
    {post : List Go.Decl} (h : FileShape u d text ds pre ty w stmts post)
    (h1 : ∀ x ∈ flatDecls pre, x.Apart) (h2 : ∀ e ∈ d.methods, w e.2 = true →
      apartIn (e.2.results.map (·.name)) (setsIn false (e.2.results.map (·.name)) (stmts e.2)) (stmts e.2))
    (h3 : ∀ x ∈ flatDecls post, x.Apart) :
    Gives u d text ds ∧ ∀ x ∈ flatDecls ds, x.Apart := by
  obtain ⟨hr, hf⟩ := h
  refine ⟨hr, fun x hx => ?_⟩
  rw [hf, List.mem_append, List.mem_append] at hx
  rcases hx with hx | hx | hx
  · exact h1 x hx
  · obtain ⟨m, hm, rfl⟩ := List.mem_map.mp hx
    obtain ⟨hm, hw⟩ := List.mem_filter.mp hm
    obtain ⟨e, he, rfl⟩ := mem_sorted.mp hm
    have := h2 e he hw
    rw [← boundNames_params] at this
    exact this
  · exact h3 x hx

theorem FileShape.keeps {u : Uni} {d : Inputs} {text : Str} {ds pre : List Go.Decl} {ty : Ty} {w : Method → Bool} {stmts : Method → List Stmt}
    {post : List Go.Decl} (h : FileShape u d text ds pre ty w stmts post)
    (h1 : ∀ x ∈ flatDecls pre, x.Keeps) (h2 : ∀ e ∈ d.methods, w e.2 = true → keepsIn (ownNames e.2) (stmts e.2) = true)
    (h3 : ∀ x ∈ flatDecls post, x.Keeps) : ∀ x ∈ flatDecls ds, x.Keeps := by
  intro x hx
  rw [h.flat, List.mem_append, List.mem_append] at hx
  rcases hx with hx | hx | hx
  · exact h1 x hx
  · obtain ⟨m, hm, rfl⟩ := List.mem_map.mp hx
    obtain ⟨hm, hw⟩ := List.mem_filter.mp hm
    obtain ⟨e, he, rfl⟩ := mem_sorted.mp hm
    have := h2 e he hw
    unfold ownNames at this
    rw [← boundNames_params, ← boundNames_params] at this
    exact this
  · exact h3 x hx

end Gowrap.Tmpl

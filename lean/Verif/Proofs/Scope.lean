import Verif.Spec.Scope
import Verif.Proofs.Shape
/-!
# The generated functions obey the rules of declarations and scope
-/

namespace Gowrap.Tmpl

open Gowrap Go Spec

theorem allScoped_iff {v : Visible} {l : List Go.Expr} : allScoped v l ↔ ∀ e ∈ l, e.Scoped v := by
  induction l with
  | nil => simp [allScoped]
  | cons e l ih => simp [allScoped, ih]

theorem stmtsScoped_append {later : Str → Bool} : ∀ (a b : List Stmt) (p : Place), stmtsScoped p later (a ++ b) ↔
    stmtsScoped p (fun x => usedIn x true b || later x) a ∧ stmtsScoped (p.afterAll a) later b := by
  intro a
  induction a with
  | nil => intro b p; simp [stmtsScoped, Place.afterAll]
  | cons s a ih =>
    intro b p
    have h : ∀ x, (usedIn x true (a ++ b) || later x) = (usedIn x true a || (usedIn x true b || later x)) := by
      intro x
      have : usedIn x true (a ++ b) = (usedIn x true a || usedIn x true b) := by
        clear ih
        induction a with
        | nil => simp [usedIn]
        | cons t a ih => simp [usedIn, ih, Bool.or_assoc]
      rw [this, Bool.or_assoc]
    simp only [List.cons_append, stmtsScoped, Place.afterAll, h, ih, and_assoc]

theorem usedIn_append {x : Str} {a b : List Stmt} : usedIn x true (a ++ b) = (usedIn x true a || usedIn x true b) := by
  induction a with
  | nil => simp [usedIn]
  | cons t a ih => simp [usedIn, ih, Bool.or_assoc]

theorem scoped_ids {v : Visible} {ps : List Param} : allScoped v (idExprs ps) ↔ ∀ p ∈ ps, v.Var p.name := by
  rw [allScoped_iff]
  simp [idExprs, Expr.Scoped]

theorem targets_ids {v : Visible} {ps : List Param} : targetsScoped v (idExprs ps) ↔ ∀ p ∈ ps, p.name = g!"_" ∨ v.Var p.name := by
  induction ps with
  | nil => simp [idExprs, targetsScoped]
  | cons p ps ih =>
    unfold idExprs at ih
    simp [idExprs, targetsScoped, Expr.TargetScoped, ih]

theorem scoped_args {v : Visible} {ps : List Param} : allScoped v (ps.map argExpr) ↔ ∀ p ∈ ps, v.Var p.name := by
  rw [allScoped_iff, List.forall_mem_map]
  refine forall_congr' fun p => imp_congr_right fun _ => ?_
  unfold argExpr
  split <;> simp [Expr.Scoped]

/-- The names of a method: `names` are those of its parameters and results. -/
structure NamesOk (m : Method) (names : List Str) : Prop where
  params : ∀ p ∈ m.params, p.name ≠ g!"_" ∧ p.name ∈ names
  results : ∀ p ∈ m.results, p.name ≠ g!"_" ∧ p.name ∈ names
  err : m.returnsError = true → g!"err" ∈ names
  ctx : m.acceptsContext = true → g!"ctx" ∈ names

theorem Visible.add_apply (v : Visible) (xs : List Str) (k : NameKind) (x : Str) : (v.add xs k) x = if x ∈ xs then some k else v x := rfl

/-- A variable with this name hides nothing. -/
def Free (v : Visible) (x : Str) : Prop := v x = none ∨ v x = some .local

section
variable {v : Visible} {xs : List Str} {x y : Str}

theorem bind_in (h : x ∈ xs) : (v.bind xs) x = some .local ∧ Free v x ∨ (v.bind xs) x = some .hiding ∧ ¬ Free v x := by
  unfold Visible.bind Visible.binds Free
  rw [if_pos h]
  cases v x with
  | none => simp
  | some k => cases k <;> simp

theorem bind_out (h : x ∉ xs) : (v.bind xs) x = v x := if_neg h

theorem bind_var : (v.bind xs).Var x ↔ x ≠ g!"_" ∧ (x ∈ xs ∨ v.Var x) := by
  unfold Visible.Var
  by_cases h : x ∈ xs
  · rcases bind_in (v := v) h with h' | h' <;> simp [h'.1, h]
  · simp [bind_out h, h]

theorem bind_qualifier : (v.bind xs).Qualifier x ↔ if x ∈ xs then x ≠ g!"_" ∧ Free v x else v.Qualifier x := by
  unfold Visible.Qualifier
  by_cases h : x ∈ xs
  · rcases bind_in (v := v) h with h' | h' <;> simp [h'.1, h'.2, h]
  · simp [bind_out h, h]

theorem bind_callee : (v.bind xs).Callee x ↔ if x ∈ xs then x ≠ g!"_" ∧ Free v x else v.Callee x := by
  unfold Visible.Callee
  by_cases h : x ∈ xs
  · rcases bind_in (v := v) h with h' | h' <;> simp [h'.1, h'.2, h]
  · simp [bind_out h, h]

theorem bind_free : Free (v.bind xs) x ↔ Free v x := by
  by_cases h : x ∈ xs
  · rcases bind_in (v := v) h with h' | h' <;> simp [Free, h'.1] <;> simpa [Free] using h'.2
  · simp [Free, bind_out h]

theorem bind_type : (v.bind xs) x = some .type ↔ x ∉ xs ∧ v x = some .type := by
  by_cases h : x ∈ xs
  · rcases bind_in (v := v) h with h' | h' <;> simp [h'.1, h]
  · simp [bind_out h, h]

theorem bind_pkg : (v.bind xs) x = some .pkg ↔ x ∉ xs ∧ v x = some .pkg := by
  by_cases h : x ∈ xs
  · rcases bind_in (v := v) h with h' | h' <;> simp [h'.1, h]
  · simp [bind_out h, h]

theorem bind_nil : v.bind [] = v := by
  funext x
  exact bind_out List.not_mem_nil

theorem add_var : (v.add xs .type).Var x ↔ x ∉ xs ∧ v.Var x := by
  unfold Visible.Var
  by_cases h : x ∈ xs <;> simp [Visible.add_apply, h]

theorem add_qualifier : (v.add xs .type).Qualifier x ↔ x ∉ xs ∧ v.Qualifier x := by
  unfold Visible.Qualifier
  by_cases h : x ∈ xs <;> simp [Visible.add_apply, h]

theorem add_callee : (v.add xs .type).Callee x ↔ if x ∈ xs then x ≠ g!"_" else v.Callee x := by
  unfold Visible.Callee
  by_cases h : x ∈ xs <;> simp [Visible.add_apply, h]

theorem add_free : Free (v.add xs .type) x ↔ x ∉ xs ∧ Free v x := by
  unfold Free
  by_cases h : x ∈ xs <;> simp [Visible.add_apply, h]

theorem var_value (h : v x = some .value) (hx : x ≠ g!"_") : v.Var x := ⟨hx, .inl h⟩

theorem qualifier_value (h : v x = some .value) (hx : x ≠ g!"_") : v.Qualifier x := ⟨hx, .inl h⟩

theorem qualifier_pkg (h : v x = some .pkg) (hx : x ≠ g!"_") : v.Qualifier x := ⟨hx, .inr (.inr h)⟩

theorem callee_value (h : v x = some .value) (hx : x ≠ g!"_") : v.Callee x := ⟨hx, .inl h⟩

theorem callee_type (h : v x = some .type) (hx : x ≠ g!"_") : v.Callee x := ⟨hx, .inr (.inr h)⟩

theorem free_none (h : v x = none) : Free v x := .inl h

end

theorem scoped_pass {p : Place} {later : Str → Bool} {recv : Go.Expr} {m : Method} : stmtsScoped p later (passStmts recv m) ↔
    (Expr.sel recv m.name).Scoped p.see ∧ (∀ q ∈ m.params, p.see.Var q.name) ∧
      (m.hasResults = false → ∀ x ∈ p.results, x ≠ g!"_" → x ∉ p.inside) := by
  unfold passStmts
  cases m.hasResults <;> simp [stmtsScoped, Stmt.Scoped, Expr.Scoped, allScoped, scoped_args, Place.after, and_assoc]

theorem usedIn_pass {x : Str} {recv : Go.Expr} {m : Method} :
    usedIn x true (passStmts recv m) = (recv.uses x || usedByAny x (m.params.map argExpr)) := by
  unfold passStmts
  cases m.hasResults <;> simp [usedIn, Stmt.uses, usedByAny, Expr.uses]

theorem scoped_map {v : Visible} {ps : List Param} : (mapExpr ps).Scoped v ↔
    v g!"string" = some .type ∧ ∀ p ∈ ps, v.Var p.name := by
  unfold mapExpr
  rw [Expr.Scoped, allScoped_iff]
  simp [mapType, Ty.Scoped, methodsScoped, Expr.Scoped]

/-- The names are visible as what they should be. -/
def Sees (v : Visible) (l : List (Str × NameKind)) : Prop := ∀ e ∈ l, v e.1 = some e.2

/-- Names of variables that the templates use before a dot or before arguments. -/
def dotted : List Str :=
  [g!"_d", g!"ctx", g!"err", g!"_span", g!"span", g!"_ticker", g!"_v", g!"_impl", g!"_res", g!"_cancelFunc", g!"cancelFunc", g!"_since", g!"_counter"]

/-- They hide nothing. -/
def Clear (v : Visible) : Prop := ∀ x ∈ dotted, Free v x

/-- The names are not among those of a method. -/
def Unused (l names : List Str) : Prop := ∀ x ∈ l, x ∉ names

macro "scope" "[" l:Lean.Parser.Tactic.simpLemma,* "]" : tactic =>
  `(tactic| simp +contextual [stmtsScoped, stmtsScoped_append, usedIn, usedIn_append, usedByAny, usedByClause, Expr.uses, Stmt.uses, Expr.targetUses, targetsUse, Stmt.introduces,
      introducedBy, idNames, Expr.idNames, areNames, Expr.isName, Stmt.Scoped, Expr.Scoped, allScoped, Expr.TargetScoped, targetsScoped, clausesScoped,
      Place.enter, Place.inner, Place.declare, Place.declareType, Place.after, Place.afterAll, Ty.Scoped, Group.Scoped, groupsScoped, methodsScoped, Results.Scoped, Results.names,
      boundNames, Group.names, Go.Distinct,
      scoped_ids, scoped_args, targets_ids, bind_var, bind_qualifier, bind_callee, bind_free, bind_type, bind_pkg, bind_nil, add_var, add_qualifier, add_callee, add_free, var_value, qualifier_value,
      qualifier_pkg, callee_value, callee_type, free_none, Tmpl.Visible.add_apply, callE, dotE, fieldE, deferS, notNilE, anyList, errMsg, callExpr, scoped_pass, usedIn_pass, scoped_map, Decidable.em, $l,*])

variable {m : Method} {v : Visible} {names results : List Str}

theorem log_scoped (n : Names) (hm : NamesOk m names) (hz : Clear v) (hn : Unused [g!"_params"] names) (hv : Sees v [(g!"nil", .value)]) :
    stmtsScoped (.enter v (g!"_d" :: names) results) (fun _ => false) (logStmts n m) := by
  have hp := hm.params
  have hr := hm.results
  have he := hm.err
  simp [Unused, Sees, Clear, dotted] at hz hn hv
  unfold logStmts logBefore logAfter
  cases h1 : m.hasParams <;> cases h2 : m.hasResults <;> cases h3 : m.returnsError <;> simp [h1, h2, h3] at he ⊢ <;> scope [hz, hn, hv, hp, hr, he, h1, h2, h3]

theorem logrus_scoped (n : Names) (hm : NamesOk m names) (hz : Clear v) (hn : Unused [g!"string", g!"logrus"] names) (hv : Sees v [(g!"nil", .value), (g!"string", .type), (g!"logrus", .pkg)]) :
    stmtsScoped (.enter v (g!"_d" :: names) results) (fun _ => false) (logrusStmts n m) := by
  have hp := hm.params
  have hr := hm.results
  have he := hm.err
  simp [Unused, Sees, Clear, dotted] at hz hn hv
  unfold logrusStmts logrusBefore logrusAfter
  cases h1 : m.hasParams <;> cases h2 : m.hasResults <;> cases h3 : m.returnsError <;> simp [h1, h2, h3] at he ⊢ <;> scope [hz, hn, hv, hp, hr, he, h1, h2, h3, logrusLine]

theorem prometheus_scoped (vec : Str) (hm : NamesOk m names) (hz : Clear v) (hn : Unused [g!"_since", g!"time"] names) (hv : Sees v [(g!"nil", .value), (g!"time", .pkg)]) (hvec : v vec = some .value ∧ vec ≠ g!"_" ∧ vec ≠ g!"result" ∧ vec ∉ g!"_d" :: names) :
    stmtsScoped (.enter v (g!"_d" :: names) results) (fun _ => false) (prometheusStmts vec m) := by
  have hp := hm.params
  have hr := hm.results
  have he := hm.err
  simp [Unused, Sees, Clear, dotted] at hz hn hv
  unfold prometheusStmts prometheusAfter ifErrStmts
  cases h3 : m.returnsError <;> simp [h3] at he ⊢ <;> scope [hz, hn, hv, hp, hr, he, h3, hvec]

theorem openTracing_scoped (a b : Str) (hm : NamesOk m names) (hz : Clear v) (hn : Unused [g!"_span", g!"string", g!"opentracing", g!"_ext", g!"_log"] names) (hv : Sees v [(g!"nil", .value), (g!"true", .value), (g!"string", .type), (g!"opentracing", .pkg), (g!"_ext", .pkg), (g!"_log", .pkg)]) (hx : g!"ctx" ∈ names) :
    stmtsScoped (.enter v (g!"_d" :: names) results) (fun _ => false) (openTracingStmts a b m) := by
  have hp := hm.params
  have hr := hm.results
  have he := hm.err
  simp [Unused, Sees, Clear, dotted] at hz hn hv
  unfold openTracingStmts tracingAfter
  cases h3 : m.returnsError <;> simp [h3] at he ⊢ <;> scope [hz, hn, hv, hp, hr, he, h3, openTracingErrorS, spanDecoratorS, hx]

theorem openCensus_scoped (a b : Str) (hm : NamesOk m names) (hz : Clear v) (hn : Unused [g!"_span", g!"string", g!"trace"] names) (hv : Sees v [(g!"nil", .value), (g!"true", .value), (g!"string", .type), (g!"trace", .pkg)]) (hx : g!"ctx" ∈ names) :
    stmtsScoped (.enter v (g!"_d" :: names) results) (fun _ => false) (openCensusStmts a b m) := by
  have hp := hm.params
  have hr := hm.results
  have he := hm.err
  simp [Unused, Sees, Clear, dotted] at hz hn hv
  unfold openCensusStmts tracingAfter
  cases h3 : m.returnsError <;> simp [h3] at he ⊢ <;> scope [hz, hn, hv, hp, hr, he, h3, openCensusErrorS, spanDecoratorS, hx]

theorem openTelemetry_scoped (a b : Str) (hm : NamesOk m names) (hz : Clear v) (hn : Unused [g!"_span", g!"string", g!"otel", g!"_codes", g!"attribute"] names) (hv : Sees v [(g!"nil", .value), (g!"true", .value), (g!"string", .type), (g!"otel", .pkg), (g!"_codes", .pkg), (g!"attribute", .pkg)]) (hx : g!"ctx" ∈ names) :
    stmtsScoped (.enter v (g!"_d" :: names) results) (fun _ => false) (openTelemetryStmts a b m) := by
  have hp := hm.params
  have hr := hm.results
  have he := hm.err
  simp [Unused, Sees, Clear, dotted] at hz hn hv
  unfold openTelemetryStmts tracingAfter
  cases h3 : m.returnsError <;> simp [h3] at he ⊢ <;> scope [hz, hn, hv, hp, hr, he, h3, openTelemetryErrorS, spanDecoratorS, hx]

theorem timeout_scoped (iface : Str) (hm : NamesOk m names) (hz : Clear v) (hn : Unused [g!"cancelFunc", g!"context"] names) (hv : Sees v [(g!"context", .pkg)]) (hx : g!"ctx" ∈ names) :
    stmtsScoped (.enter v (g!"_d" :: names) results) (fun _ => false) (timeoutStmts iface m) := by
  have hp := hm.params
  have hr := hm.results
  simp [Unused, Sees, Clear, dotted] at hz hn hv
  unfold timeoutStmts
  scope [hz, hn, hv, hp, hr, timeoutField, hx]

theorem breaker_scoped (dec iface : Str) (hm : NamesOk m names) (hz : Clear v) (hn : Unused [g!"errors", g!"time"] names) (hv : Sees v [(g!"nil", .value), (g!"errors", .pkg), (g!"time", .pkg)]) (hq : ∀ x ∈ results, x ∉ [g!"_e"]) (hx : g!"err" ∈ names) :
    stmtsScoped (.enter v (g!"_d" :: names) results) (fun _ => false) (breakerStmts dec iface m) := by
  have hp := hm.params
  have hr := hm.results
  simp [Unused, Sees, Clear, dotted] at hz hn hv hq
  unfold breakerStmts attemptStmts openStmts ignoreS countStmts resetStmts
  scope [hz, hn, hv, hq, hp, hr, lockE, hx]

theorem retry_scoped (iface : Str) (hm : NamesOk m names) (hz : Clear v) (hn : Unused [g!"_ticker", g!"time"] names) (hv : Sees v [(g!"nil", .value), (g!"time", .pkg)]) (hq : ∀ x ∈ results, x ∉ [g!"_i"]) (hx : g!"err" ∈ names) :
    stmtsScoped (.enter v (g!"_d" :: names) results) (fun _ => false) (retryStmts iface m) := by
  have hp := hm.params
  have hr := hm.results
  have hc := hm.ctx
  simp [Unused, Sees, Clear, dotted] at hz hn hv hq
  unfold retryStmts callS waitS moreE
  cases h3 : m.acceptsContext <;> simp [h3] at hc ⊢ <;> scope [hz, hn, hv, hq, hp, hr, hc, h3, hx]

theorem rateLimit_scoped (hm : NamesOk m names) (hz : Clear v) :
    stmtsScoped (.enter v (g!"_d" :: names) results) (fun _ => false) (rateLimitStmts m) := by
  have hp := hm.params
  have hr := hm.results
  have he := hm.err
  have hc := hm.ctx
  simp [Unused, Sees, Clear, dotted] at hz
  unfold rateLimitStmts
  cases h1 : m.acceptsContext <;> cases h3 : m.returnsError <;> simp [h1, h3] at he hc ⊢ <;> scope [hz, hp, hr, he, hc, h1, h3]

theorem robinPool_scoped (hm : NamesOk m names) (hz : Clear v) (hn : Unused [g!"_counter", g!"atomic"] names) (hv : Sees v [(g!"atomic", .pkg)]) :
    stmtsScoped (.enter v (g!"_d" :: names) results) (fun _ => false) (robinPoolStmts m) := by
  have hp := hm.params
  have hr := hm.results
  simp [Unused, Sees, Clear, dotted] at hz hn hv
  unfold robinPoolStmts
  scope [hz, hn, hv, hp, hr, poolE]

theorem syncPool_scoped (hm : NamesOk m names) (hz : Clear v) (hn : Unused [g!"_impl"] names) :
    stmtsScoped (.enter v (g!"_d" :: names) results) (fun _ => false) (syncPoolStmts m) := by
  have hp := hm.params
  have hr := hm.results
  simp [Unused, Sees, Clear, dotted] at hz hn
  unfold syncPoolStmts
  scope [hz, hn, hp, hr]

theorem afterAll_append (a b : List Stmt) (p : Place) : p.afterAll (a ++ b) = (p.afterAll a).afterAll b := by
  induction a generalizing p with
  | nil => simp [Place.afterAll]
  | cons s a ih => simp [Place.afterAll, ih]

/-- A loop over the parameters that declares nothing. -/
theorem scoped_loop {f : Param → List Stmt} {p : Place} {ps : List Param} (ha : ∀ q, p.afterAll (f q) = p)
    (hf : ∀ q ∈ ps, ∀ later, stmtsScoped p later (f q)) (later : Str → Bool) :
    stmtsScoped p later (ps.flatMap f) ∧ p.afterAll (ps.flatMap f) = p := by
  induction ps generalizing later with
  | nil => simp [stmtsScoped, Place.afterAll]
  | cons q ps ih =>
    have h1 := hf q (.head _)
    have h2 := ih (fun q' hq' => hf q' (.tail _ hq'))
    rw [List.flatMap_cons, stmtsScoped_append, afterAll_append, ha q]
    exact ⟨⟨h1 _, (h2 _).1⟩, (h2 later).2⟩

theorem apm_scoped (u : Uni) (a : Str) (hm : NamesOk m names) (hz : Clear v) (hn : Unused [g!"span"] names) (hv : Sees v [(g!"nil", .value)])
    (hx : g!"ctx" ∈ names) :
    stmtsScoped (.enter v (g!"_d" :: names) results) (fun _ => false) (apmStmts u a m) := by
  have hp := hm.params
  have he := hm.err
  simp [Unused, Sees, Clear, dotted] at hz hn hv
  have hl := scoped_loop (f := apmLabels u) (ps := m.params)
    (p := (Place.enter v (g!"_d" :: names) results).declare [g!"span", g!"ctx"])
    (fun q => by unfold apmLabels; cases Param.isCtx q <;> scope [apmLabel])
    (fun q hq later => by
      have := hp q hq
      unfold apmLabels
      cases Param.isCtx q <;> scope [apmLabel, this, hz])
  unfold apmStmts apmAfter
  cases h3 : m.returnsError <;> simp [h3] at he ⊢ <;> simp only [stmtsScoped, Place.after, Stmt.Scoped, idNames, Expr.idNames, List.append_nil,
    List.cons_append, List.nil_append, (hl (fun _ => false)).2, fun l => (hl l).1, deferS] <;> scope [hz, hn, hv, hp, hx, he]

theorem twirpError_scoped (iface : Str) (hm : NamesOk m names) (hz : Clear v)
    (hn : Unused [g!"injectRequestDataToError"] names) (hv : Sees v [(g!"injectRequestDataToError", .value)]) :
    stmtsScoped (.enter v (g!"_d" :: names) results) (fun _ => false) (twirpErrorStmts iface m) := by
  have hp := hm.params
  have he := hm.err
  simp [Unused, Sees, Clear, dotted] at hz hn hv
  unfold twirpErrorStmts
  cases h3 : m.returnsError
  · scope [hp, hz]
  · simp [h3] at he
    have hl := scoped_loop (f := injectLoop m) (ps := m.params) (p := Place.enter v (g!"_d" :: names) results)
      (fun q => by unfold injectLoop; cases m.acceptsContext && Param.isCtx q <;> scope [injectS])
      (fun q hq later => by
        have := hp q hq
        unfold injectLoop
        cases m.acceptsContext && Param.isCtx q <;> scope [injectS, this, hz, hn, hv, he])
    simp only [cond_true, stmtsScoped, Place.after, Stmt.Scoped, (hl (fun _ => false)).2, fun l => (hl l).1]
    scope [hp, hz]

/-- What the templates for validation do if a parameter is not valid. -/
theorem validate_scoped (onErr : List Stmt) (iface : Str) (hm : NamesOk m names) (hz : Clear v) (hn : Unused [g!"error"] names)
    (hq : ∀ x ∈ results, x ∉ [g!"_v", g!"_ok"]) (hv : Sees v [(g!"nil", .value), (g!"error", .type)])
    (ho : m.returnsError = true → ∀ p : Place, (∀ x ∈ p.results, x ∉ p.inside) → (p.see = ((v.bind (g!"_d" :: names)).bind [g!"_v", g!"_ok"])) →
      p.inside = [g!"_v", g!"_ok"] → stmtsScoped p (fun _ => false) onErr) :
    stmtsScoped (.enter v (g!"_d" :: names) results) (fun _ => false) (validateStmts onErr iface m) := by
  have hp := hm.params
  have he := hm.err
  simp [Unused, Sees, Clear, dotted] at hz hn hq hv
  unfold validateStmts
  cases h3 : m.returnsError
  · scope [hp, hz]
  · simp [h3] at he ho
    have hl := scoped_loop (f := validateLoop onErr m) (ps := m.params) (p := Place.enter v (g!"_d" :: names) results)
      (fun q => by unfold validateLoop; cases m.acceptsContext && Param.isCtx q <;> scope [validateS])
      (fun q hq' later => by
        have := hp q hq'
        unfold validateLoop
        cases m.acceptsContext && Param.isCtx q
        · scope [validateS, this, hz, hv, he, hn]
          exact ho _ (by simp; exact hq) rfl rfl
        · simp [stmtsScoped])
    simp only [cond_true, stmtsScoped, Place.after, Stmt.Scoped, (hl (fun _ => false)).2, fun l => (hl l).1]
    scope [hp, hz]

theorem used_ids {x : Str} {ps : List Param} : usedByAny x (idExprs ps) = decide (x ∈ ps.map (·.name)) := by
  induction ps with
  | nil => simp [idExprs, usedByAny]
  | cons p ps ih =>
    unfold idExprs at ih
    simp [idExprs, usedByAny, Expr.uses, ih, Bool.decide_or, eq_comm]

theorem idNames_ids {ps : List Param} : idNames (idExprs ps) = ps.map (·.name) := by
  induction ps with
  | nil => simp [idExprs, idNames]
  | cons p ps ih =>
    unfold idExprs at ih
    simp [idExprs, idNames, Expr.idNames, ih]

theorem areNames_ids {ps : List Param} : areNames (idExprs ps) = true := by
  induction ps with
  | nil => simp [idExprs, areNames]
  | cons p ps ih =>
    unfold idExprs at ih
    simp [idExprs, areNames, Expr.isName, ih]

theorem scoped_resExprs {ps : List Param} : allScoped v (resExprs ps) ↔ ∀ p ∈ ps, v.Qualifier g!"_res" := by
  rw [allScoped_iff]
  simp [resExprs, Expr.Scoped]

theorem used_resExprs {ps : List Param} (h : ps ≠ []) : usedByAny g!"_res" (resExprs ps) = true := by
  cases ps with
  | nil => exact absurd rfl h
  | cons p ps => simp [resExprs, usedByAny, Expr.uses]

theorem groupsScoped_decls {ps : List Param} : groupsScoped v (paramDecls ps) := by
  induction ps with
  | nil => simp [paramDecls, groupsScoped]
  | cons p ps ih =>
    unfold paramDecls at ih
    simp [paramDecls, groupsScoped, Group.Scoped, Ty.Scoped, ih]

theorem boundNames_decls {ps : List Param} : boundNames (paramDecls ps) = ps.map (·.name) := by
  induction ps with
  | nil => rfl
  | cons p ps ih =>
    unfold boundNames paramDecls at ih
    simp [boundNames, paramDecls, Group.names, ih]

theorem distinct_of {l : List Str} (h : l.Nodup) : Go.Distinct l := h.sublist List.filter_sublist

theorem resultsTy_scoped {ps : List Param} (h : (ps.map (·.name)).Nodup) : (resultsTy ps).Scoped v := by
  unfold resultsTy
  cases ps.isEmpty
  · simp only [cond_false, resultsStructType, Ty.Scoped, groupsScoped_decls, boundNames_decls, true_and]
    exact distinct_of h
  · simp [Ty.Scoped, groupsScoped, boundNames, Go.Distinct]

/-- The function literal that calls an implementation. -/
theorem child_scoped {w : Visible} (hp : ∀ q ∈ m.params, w.Var q.name)
    (hr : ∀ q ∈ m.results, q.name ≠ g!"_" ∧ q.name ≠ g!"_impl" ∧ q.name ≠ g!"_ch" ∧ q.name ≠ g!"_resultStruct")
    (hd : (m.results.map (·.name)).Nodup) (he : m.returnsError = true → g!"err" ∈ m.results.map (·.name))
    (hc : m.acceptsContext = true → w.Qualifier g!"ctx")
    (hv : w.Var g!"nil" ∧ w.Var g!"_ch" ∧ w g!"_resultStruct" = some .type ∧ Free w g!"_impl") (hf : w.Qualifier g!"fmt")
    (hfr : g!"fmt" ∉ m.results.map (·.name)) (hcr : m.acceptsContext = true → g!"ctx" ∉ m.results.map (·.name)) :
    stmtsScoped (.enter w [g!"_impl"] []) (fun _ => false) (childStmts m) := by
  have h1 : ∀ x ∈ m.results.map (·.name), x ≠ g!"_impl" := by
    intro x hx
    obtain ⟨q, hq, rfl⟩ := List.mem_map.mp hx
    exact (hr q hq).2.1
  have h2 : g!"_ch" ∉ m.results.map (·.name) := by
    intro hx
    obtain ⟨q, hq, h⟩ := List.mem_map.mp hx
    exact (hr q hq).2.2.1 h
  have h3 : g!"_resultStruct" ∉ m.results.map (·.name) := by
    intro hx
    obtain ⟨q, hq, h⟩ := List.mem_map.mp hx
    exact (hr q hq).2.2.2 h
  have h4 : ∀ q ∈ m.results, q.name ∈ m.results.map (·.name) := fun q hq => List.mem_map.mpr ⟨q, hq, rfl⟩
  have h5 : m.hasResults = true → ∃ x ∈ m.results.map (·.name), x ≠ g!"_" := by
    intro h
    cases hm : m.results with
    | nil => simp [Method.hasResults, hm] at h
    | cons q qs => exact ⟨q.name, by simp, (hr q (by simp [hm])).1⟩
  have h6 : m.hasResults = false → m.results = [] := by
    intro h
    cases hm : m.results with
    | nil => rfl
    | cons q qs => simp [Method.hasResults, hm] at h
  have hdd := distinct_of hd
  have hpb : ∀ q ∈ m.params, ¬ q.name = g!"_" := fun q hq => (hp q hq).1
  generalize hns : m.results.map (·.name) = ns at *
  unfold childStmts implStmts wrapStmts sendStmt
  cases hh : m.hasResults
  · have hnil := h6 hh
    rw [hnil] at hns
    subst hns
    have hre : m.returnsError = false := by
      cases h : m.returnsError
      · rfl
      · exact absurd (he h) (by simp)
    cases ha : m.acceptsContext <;> simp [ha, hre] at hc ⊢ <;> scope [hv, hp, hpb, hc, hnil, sendChS, doneS, idExprs]
  · obtain ⟨y, hy, hy'⟩ := h5 hh
    have h7 : ∃ x ∈ ns, ¬ x = g!"_" ∧ ¬ x = g!"_impl" := ⟨y, hy, hy', h1 y hy⟩
    unfold Go.Distinct at hdd
    cases ha : m.acceptsContext <;> cases hre : m.returnsError <;> simp [ha, hre] at hc he hcr ⊢ <;>
      scope [hv, hp, hpb, hc, he, hr, h1, h2, h3, h4, hdd, hns, hf, hfr, hcr, sendChS, doneS, used_ids, idNames_ids, areNames_ids] <;>
      first
        | exact ⟨by simpa using hdd, h7⟩

/-- The goroutine that starts the implementations. -/
theorem launcher_scoped {w : Visible} {type : Str} (hp : ∀ q ∈ m.params, w.Var q.name)
    (hr : ∀ q ∈ m.results, q.name ≠ g!"_" ∧ q.name ≠ g!"_impl" ∧ q.name ≠ g!"_ch" ∧ q.name ≠ g!"_resultStruct")
    (hd : (m.results.map (·.name)).Nodup) (he : m.returnsError = true → g!"err" ∈ m.results.map (·.name))
    (hc : m.acceptsContext = true → w.Qualifier g!"ctx")
    (hv : w.Var g!"nil" ∧ w.Var g!"_ch" ∧ w g!"_resultStruct" = some .type ∧ Free w g!"_impl" ∧ w.Qualifier g!"_d" ∧ w.Callee g!"len" ∧
      w.Qualifier g!"_ticker" ∧ w.Var g!"_next") (hf : w.Qualifier g!"fmt")
    (hfr : g!"fmt" ∉ m.results.map (·.name)) (hcr : m.acceptsContext = true → g!"ctx" ∉ m.results.map (·.name)) :
    stmtsScoped (.enter w [] []) (fun _ => false) (launcherStmts type m) := by
  have hch := child_scoped (m := m) (w := (w.bind []).bind [g!"_i"])
    (fun q hq => bind_var.mpr ⟨(hp q hq).1, .inr (by rw [bind_nil]; exact hp q hq)⟩) hr hd he
    (fun h => by simpa [bind_nil, bind_qualifier] using hc h)
    (by simp [bind_nil, bind_var, bind_type, bind_free, hv]) (by simpa [bind_nil, bind_qualifier] using hf) hfr hcr
  unfold launcherStmts launchBody countE
  generalize childStmts m = cs at hch
  scope [hv, hch]
  exact hch

/-- The reception of the results. -/
theorem await_scoped {p : Place} (hr : m.hasResults = true → m.results ≠ []) (hb : g!"_res" ∉ p.block) (hi : p.inside = [])
    (hq : g!"_res" ∉ p.results)
    (he : m.returnsError = true → p.see.Var g!"err" ∧ p.see.Qualifier g!"err" ∧ p.see.Var g!"_errorsList")
    (hx : m.returnsError = true → m.results ≠ [])
    (hc : m.acceptsContext = true → p.see.Qualifier g!"ctx")
    (hv : p.see.Var g!"nil" ∧ p.see.Var g!"_ch" ∧ p.see.Qualifier g!"_d" ∧ p.see.Callee g!"len" ∧ p.see.Callee g!"append" ∧
      p.see.Var g!"_next" ∧ Free p.see g!"_res") (hf : p.see.Qualifier g!"errors")
    (hs : p.see.Qualifier g!"strings") (hg : p.see.Qualifier g!"fmt") :
    stmtsScoped p (fun _ => false) (awaitStmts m) := by
  obtain ⟨w, b, top, ins, res⟩ := p
  simp at hv hb hi hq he hc hf hs hg
  subst hi
  have hh : m.returnsError = true → m.hasResults = true := by
    intro h
    have := hx h
    cases hm : m.results with
    | nil => exact absurd hm this
    | cons q qs => simp [Method.hasResults, hm]
  unfold awaitStmts gotStmts recvS doneStmts joinE
  cases hre : m.returnsError
  · cases hh' : m.hasResults
    · cases hac : m.acceptsContext <;> simp [hac] at hc ⊢ <;> scope [hv, hc, hb, hq, countE, doneS]
    · have h1 := used_resExprs (hr hh')
      cases hac : m.acceptsContext <;> simp [hac] at hc ⊢ <;> scope [hv, hc, hb, hq, countE, doneS, scoped_resExprs, h1]
  · have h1 := used_resExprs (hx hre)
    rw [hh hre]
    cases hac : m.acceptsContext <;> simp [hac, hre] at hc he ⊢ <;> scope [hv, hc, hb, hq, he, hf, hs, hg, countE, doneS, scoped_resExprs, h1]
    exact fun x hx' _ hx'' => hq (hx'' ▸ hx')

theorem used_ch : usedIn g!"_ch" true (awaitStmts m) = true := by
  unfold awaitStmts recvS
  cases m.acceptsContext <;> cases m.returnsError <;> cases m.hasResults <;> scope []

theorem used_errors (h : m.returnsError = true) (hr : m.hasResults = true) : usedIn g!"_errorsList" true (awaitStmts m) = true := by
  unfold awaitStmts gotStmts recvS
  cases m.acceptsContext <;> scope [h, hr]

theorem used_next {type : Str} : usedIn g!"_next" false (launcherStmts type m) = true := by
  unfold launcherStmts launchBody
  scope []

theorem fallback_scoped (type : Str) (hm : NamesOk m names) (hz : Clear v)
    (hn : Unused [g!"_resultStruct", g!"_ch", g!"_next", g!"_errorsList", g!"_ticker", g!"_cancelFunc", g!"_res", g!"string",
      g!"len", g!"append", g!"make", g!"time", g!"context", g!"fmt", g!"errors", g!"strings"] names)
    (hq : ∀ x ∈ results, x ∉ [g!"_res"]) (hres : ∀ q ∈ m.results, q.name ≠ g!"_impl") (hd : (m.results.map (·.name)).Nodup)
    (her : m.returnsError = true → g!"err" ∈ m.results.map (·.name)) (hcr : m.acceptsContext = true → g!"ctx" ∉ m.results.map (·.name))
    (hv : Sees v [(g!"nil", .value), (g!"len", .value), (g!"append", .value), (g!"make", .value), (g!"string", .type), (g!"time", .pkg),
      (g!"context", .pkg), (g!"fmt", .pkg), (g!"errors", .pkg), (g!"strings", .pkg)]) :
    stmtsScoped (.enter v (g!"_d" :: names) results) (fun _ => false) (fallbackStmts type m) := by
  have hp := hm.params
  have hr := hm.results
  have he := hm.err
  have hc := hm.ctx
  have hrt := @resultsTy_scoped
  simp [Unused, Sees, Clear, dotted] at hz hn hv hq
  have hq0 : g!"_res" ∉ results := fun h => hq _ h rfl
  have hh : m.hasResults = true → m.results ≠ [] := by
    intro h hm
    simp [Method.hasResults, hm] at h
  have hx : m.returnsError = true → m.results ≠ [] := by
    intro h hm
    simp [hm] at her
    exact absurd h (by simp [her])
  have hh' : m.returnsError = true → m.hasResults = true := by
    intro h
    cases hm : m.results with
    | nil => exact absurd hm (hx h)
    | cons q qs => simp [Method.hasResults, hm]
  have hr' : ∀ q ∈ m.results, q.name ≠ g!"_" ∧ q.name ≠ g!"_impl" ∧ q.name ≠ g!"_ch" ∧ q.name ≠ g!"_resultStruct" := by
    intro q hq'
    refine ⟨(hr q hq').1, hres q hq', ?_, ?_⟩ <;> intro h
    · exact hn.2.1 (h ▸ (hr q hq').2)
    · exact hn.1 (h ▸ (hr q hq').2)
  have hfr : g!"fmt" ∉ m.results.map (·.name) := by
    intro h
    obtain ⟨q, hq', h⟩ := List.mem_map.mp h
    exact absurd (h ▸ (hr q hq').2) (by simp [hn])
  have hl := fun w hp hc hv hf => launcher_scoped (m := m) (w := w) (type := type) hp hr' hd her hc hv hf hfr hcr
  simp only [Place.enter, bind_nil] at hl
  have hw := fun p hb hi hq he hc hv hf hs hg => await_scoped (m := m) (p := p) hh hb hi hq he hx hc hv hf hs hg
  have hu := @used_ch m
  have hun := @used_next m type
  have hue := fun h => @used_errors m h (hh' h)
  unfold fallbackStmts
  generalize launcherStmts type m = ls at *
  generalize awaitStmts m = as at *
  cases hre : m.returnsError <;> cases hac : m.acceptsContext <;> simp [hre, hac] at he hc hue <;>
      simp only [cond_false, cond_true, List.append_nil, List.nil_append, List.cons_append] <;>
      scope [hz, hn, hv, hu, hun, hue, hc, hrt hd, countE] <;> refine ⟨?_, ?_⟩
  all_goals first
    | refine hl _ (fun q hq' => by
          have h1 := hp q hq'
          have h2 : ¬ q.name = g!"_resultStruct" := fun h => hn.1 (h ▸ h1.2)
          scope [h1, h2]) ?_ ?_ ?_ <;>
        scope [hz, hn, hv, hc, hac]
    | refine hw _ ?_ ?_ ?_ ?_ ?_ ?_ ?_ ?_ ?_ <;>
        scope [hz, hn, hv, hc, he, hre, hac, hq0]
end Gowrap.Tmpl

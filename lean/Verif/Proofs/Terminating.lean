import Verif.Spec.Terminating
import Verif.Proofs.Shape
/-!
# The generated functions end in terminating statements
-/

namespace Gowrap.Tmpl

open Gowrap Go Spec

theorem endsIn_append : ∀ (a b : List Stmt) (l : Bool), endsIn l (a ++ b) = endsIn (endsIn l a) b
  | [], _, _ => by simp [endsIn]
  | .many ss :: a, b, l => by simp [endsIn, endsIn_append a b]
  | .expr e :: a, b, l => by simp [endsIn, endsIn_append a b]
  | .assign _ _ :: a, b, l => by simp [endsIn, endsIn_append a b]
  | .define _ _ :: a, b, l => by simp [endsIn, endsIn_append a b]
  | .inc _ :: a, b, l => by simp [endsIn, endsIn_append a b]
  | .send _ _ :: a, b, l => by simp [endsIn, endsIn_append a b]
  | .var _ _ :: a, b, l => by simp [endsIn, endsIn_append a b]
  | .varInit _ _ :: a, b, l => by simp [endsIn, endsIn_append a b]
  | .type _ _ :: a, b, l => by simp [endsIn, endsIn_append a b]
  | .ret _ :: a, b, l => by simp [endsIn, endsIn_append a b]
  | .cond _ _ :: a, b, l => by simp [endsIn, endsIn_append a b]
  | .condElse _ _ _ :: a, b, l => by simp [endsIn, endsIn_append a b]
  | .condElseIf _ _ _ :: a, b, l => by simp [endsIn, endsIn_append a b]
  | .condInit _ _ _ :: a, b, l => by simp [endsIn, endsIn_append a b]
  | .loop _ _ _ _ :: a, b, l => by simp [endsIn, endsIn_append a b]
  | .forever _ :: a, b, l => by simp [endsIn, endsIn_append a b]
  | .range _ _ _ :: a, b, l => by simp [endsIn, endsIn_append a b]
  | .defer _ :: a, b, l => by simp [endsIn, endsIn_append a b]
  | .go _ :: a, b, l => by simp [endsIn, endsIn_append a b]
  | .select _ :: a, b, l => by simp [endsIn, endsIn_append a b]

theorem endsIn_pass (recv : Go.Expr) (m : Method) (l : Bool) : endsIn l (passStmts recv m) = true := by
  unfold passStmts
  cases m.hasResults <;> simp [endsIn, Stmt.terminates]

theorem literalsReturnIn_iff {l : List Go.Expr} : literalsReturnIn l = true ↔ ∀ e ∈ l, e.literalsReturn = true := by
  induction l with
  | nil => simp [literalsReturnIn]
  | cons e l ih => simp [literalsReturnIn, ih]

theorem literalsReturnIns_iff {l : List Stmt} : literalsReturnIns l = true ↔ ∀ e ∈ l, e.literalsReturn = true := by
  induction l with
  | nil => simp [literalsReturnIns]
  | cons e l ih => simp [literalsReturnIns, ih]

theorem literalsReturnIns_append {a b : List Stmt} : literalsReturnIns (a ++ b) = (literalsReturnIns a && literalsReturnIns b) := by
  induction a with
  | nil => simp [literalsReturnIns]
  | cons e l ih => simp [literalsReturnIns, ih, Bool.and_assoc]

theorem literalsReturn_ids (ps : List Param) : literalsReturnIn (idExprs ps) = true := by
  rw [literalsReturnIn_iff]
  intro e he
  obtain ⟨p, _, rfl⟩ := List.mem_map.mp he
  rfl

theorem literalsReturn_args (ps : List Param) : literalsReturnIn (ps.map argExpr) = true := by
  rw [literalsReturnIn_iff]
  intro e he
  obtain ⟨p, _, rfl⟩ := List.mem_map.mp he
  unfold argExpr
  split <;> rfl

theorem literalsReturn_res (ps : List Param) : literalsReturnIn (resExprs ps) = true := by
  rw [literalsReturnIn_iff]
  intro e he
  obtain ⟨p, _, rfl⟩ := List.mem_map.mp he
  rfl

theorem literalsReturn_map (ps : List Param) : (mapExpr ps).literalsReturn = true := by
  unfold mapExpr
  rw [Expr.literalsReturn, literalsReturnIn_iff]
  intro e he
  obtain ⟨p, _, rfl⟩ := List.mem_map.mp he
  rfl

theorem literalsReturn_pass (recv : Go.Expr) (m : Method) : literalsReturnIns (passStmts recv m) = recv.literalsReturn := by
  unfold passStmts
  cases m.hasResults <;> simp [literalsReturnIns, Stmt.literalsReturn, literalsReturnIn, Expr.literalsReturn, literalsReturn_args]

/-- Every function of the file returns if the methods do. -/
theorem FileShape.returns {u : Uni} {d : Inputs} {text : Str} {ds pre : List Go.Decl} {ty : Ty} {w : Method → Bool} {stmts : Method → List Stmt}
    {post : List Go.Decl} (h : FileShape u d text ds pre ty w stmts post)
    (h1 : ∀ x ∈ flatDecls pre, x.Returns) (h2 : ∀ e ∈ d.methods, w e.2 = true →
      (e.2.results = [] ∨ endsIn false (stmts e.2) = true) ∧ literalsReturnIns (stmts e.2) = true)
    (h3 : ∀ x ∈ flatDecls post, x.Returns) :
    Gives u d text ds ∧ ∀ x ∈ flatDecls ds, x.Returns := by
  obtain ⟨hr, hf⟩ := h
  refine ⟨hr, fun x hx => ?_⟩
  rw [hf, List.mem_append, List.mem_append] at hx
  rcases hx with hx | hx | hx
  · exact h1 x hx
  · obtain ⟨m, hm, rfl⟩ := List.mem_map.mp hx
    obtain ⟨hm, hw⟩ := List.mem_filter.mp hm
    obtain ⟨e, he, rfl⟩ := mem_sorted.mp hm
    obtain ⟨h, hl⟩ := h2 e he hw
    refine ⟨?_, hl⟩
    rcases h with h | h
    · exact .inl (by rw [h]; rfl)
    · exact .inr h
  · exact h3 x hx

/-- The statements end in a terminating one and so do the function literals in them. -/
def GoodBody (b : List Stmt) : Prop := endsIn false b = true ∧ literalsReturnIns b = true

macro "rets" "[" l:Lean.Parser.Tactic.simpLemma,* "]" : tactic =>
  `(tactic| simp [GoodBody, endsIn, endsIn_append, endsIn_pass, Stmt.terminates, clausesTerminate, literalsReturnIns, literalsReturnIns_append, literalsReturnIn,
      Stmt.literalsReturn, Expr.literalsReturn, clausesLiteralsReturn, literalsReturn_ids, literalsReturn_args, literalsReturn_map, literalsReturn_res,
      literalsReturn_pass, Results.count, groupCount, callE, dotE, fieldE, deferS, notNilE, anyList, errMsg, callExpr, $l,*])

variable (m : Method)

theorem log_returns (n : Names) : GoodBody (logStmts n m) := by
  unfold logStmts logBefore logAfter
  cases m.hasParams <;> cases m.hasResults <;> cases m.returnsError <;> rets []

theorem logrus_returns (n : Names) : GoodBody (logrusStmts n m) := by
  unfold logrusStmts logrusBefore logrusAfter
  cases m.hasParams <;> cases m.hasResults <;> cases m.returnsError <;> rets [logrusLine]

theorem prometheus_returns (vec : Str) : GoodBody (prometheusStmts vec m) := by
  unfold prometheusStmts prometheusAfter ifErrStmts
  cases m.returnsError <;> rets []

theorem opentracing_returns (a b : Str) : GoodBody (openTracingStmts a b m) := by
  unfold openTracingStmts tracingAfter
  cases m.returnsError <;> rets [openTracingErrorS, spanDecoratorS]

theorem opencensus_returns (a b : Str) : GoodBody (openCensusStmts a b m) := by
  unfold openCensusStmts tracingAfter
  cases m.returnsError <;> rets [openCensusErrorS, spanDecoratorS]

theorem opentelemetry_returns (a b : Str) : GoodBody (openTelemetryStmts a b m) := by
  unfold openTelemetryStmts tracingAfter
  cases m.returnsError <;> rets [openTelemetryErrorS, spanDecoratorS]

theorem literalsReturn_loop {f : Param → List Stmt} (ps : List Param) (h : ∀ p, literalsReturnIns (f p) = true) :
    literalsReturnIns (ps.flatMap f) = true := by
  rw [literalsReturnIns_iff]
  intro s hs
  obtain ⟨p, _, hp⟩ := List.mem_flatMap.mp hs
  exact literalsReturnIns_iff.mp (h p) s hp

theorem apm_returns (u : Uni) (a : Str) : GoodBody (apmStmts u a m) := by
  have h := literalsReturn_loop (f := apmLabels u) m.params (fun p => by unfold apmLabels; cases Param.isCtx p <;> rets [apmLabel])
  unfold apmStmts apmAfter
  cases m.returnsError <;> rets [h]

theorem validate_returns {onErr : List Stmt} (h : literalsReturnIns onErr = true) (a : Str) : GoodBody (validateStmts onErr a m) := by
  have h' := literalsReturn_loop (f := validateLoop onErr m) m.params
    (fun p => by unfold validateLoop; cases m.acceptsContext && Param.isCtx p <;> rets [validateS, h])
  unfold validateStmts
  cases m.returnsError <;> rets [h']

theorem twirpError_returns (a : Str) : GoodBody (twirpErrorStmts a m) := by
  have h' := literalsReturn_loop (f := injectLoop m) m.params
    (fun p => by unfold injectLoop; cases m.acceptsContext && Param.isCtx p <;> rets [injectS])
  unfold twirpErrorStmts
  cases m.returnsError <;> rets [h']

theorem timeout_returns (a : Str) : GoodBody (timeoutStmts a m) := by
  unfold timeoutStmts timeoutField
  rets []

theorem breaker_returns (a b : Str) : GoodBody (breakerStmts a b m) := by
  unfold breakerStmts attemptStmts
  rets [openStmts, resetStmts, countStmts, ignoreS, lockE]

theorem retry_returns (a : Str) : GoodBody (retryStmts a m) := by
  unfold retryStmts waitS
  cases m.acceptsContext <;> rets [callS, moreE]

theorem rateLimit_returns : GoodBody (rateLimitStmts m) := by
  unfold rateLimitStmts
  cases m.acceptsContext && m.returnsError <;> rets []

theorem robinPool_returns : GoodBody (robinPoolStmts m) := by
  unfold robinPoolStmts
  rets [poolE]

theorem syncPool_returns : GoodBody (syncPoolStmts m) := by
  unfold syncPoolStmts
  rets []

/-- The end of a method of `templates/fallback` is missing if it returns an error and takes no context. -/
theorem fallback_returns (type : Str) (h : m.returnsError = true → m.acceptsContext = true) : GoodBody (fallbackStmts type m) := by
  unfold fallbackStmts launcherStmts launchBody childStmts awaitStmts implStmts wrapStmts gotStmts sendStmt recvS doneStmts
  revert h
  cases m.acceptsContext <;> cases m.returnsError <;> cases m.hasResults <;> intro h <;>
    first | exact absurd (h rfl) (by decide) | rets [sendChS, doneS, joinE, countE]

theorem fallback_not_returns (type : Str) (h1 : m.returnsError = true) (h2 : m.acceptsContext = false) :
    endsIn false (fallbackStmts type m) = false := by
  unfold fallbackStmts launcherStmts launchBody childStmts awaitStmts recvS
  rw [h1, h2]
  cases m.hasResults <;> rets []

end Gowrap.Tmpl

import Verif.Proofs.Grammar
import Verif.Proofs.DenApm
import Verif.Proofs.DenBreaker
import Verif.Proofs.DenFallback
import Verif.Proofs.DenLog
import Verif.Proofs.DenLogrus
import Verif.Proofs.DenPools
import Verif.Proofs.DenPrometheus
import Verif.Proofs.DenRateLimit
import Verif.Proofs.DenRetry
import Verif.Proofs.DenTimeout
import Verif.Proofs.DenTracing
import Verif.Proofs.DenTwirpError
import Verif.Proofs.DenValidate
/-!
# The generated methods are grammatical
-/

namespace Gowrap.Tmpl

open Gowrap Go Spec

variable {S : Sources} {m : Method}

theorem prec_eq : binPrec g!"==" = some 3 := rfl
theorem prec_ne : binPrec g!"!=" = some 3 := rfl
theorem prec_lt : binPrec g!"<" = some 3 := rfl
theorem prec_gt : binPrec g!">" = some 3 := rfl
theorem prec_ge : binPrec g!">=" = some 3 := rfl
theorem prec_and : binPrec g!"&&" = some 2 := rfl
theorem prec_or : binPrec g!"||" = some 1 := rfl
theorem prec_add : binPrec g!"+" = some 4 := rfl
theorem prec_sub : binPrec g!"-" = some 4 := rfl
theorem prec_mod : binPrec g!"%" = some 5 := rfl
theorem prec_div : binPrec g!"/" = some 5 := rfl

theorem namedAlike_nil : NamedAlike [] := .inl nofun

/-- Unfolds what it means that a tree is grammatical; what remains are names. -/
macro "gram" "[" l:Lean.Parser.Tactic.simpLemma,* "]" : tactic =>
  `(tactic| ((try simp [StmtsOk, Stmt.Ok, Expr.Ok, ExprsOk, ArgsOk, ElemsOk, ClausesOk, Clause.Ok, Ty.Ok, Group.Ok, GroupsOk, StructOk, Results.Ok,
      MethodsOk, IfaceMethod.Ok, Ty.Literal, Expr.IsCall, Expr.IsName, Expr.Receives, Stmt.Simple, Stmt.IsIf, Stmt.Communicates,
      flatExprs, all_ids, argExpr_isMany, tidy_nil, tidy_many, tidy, Expr.filled, Ty.put, mapExpr_isMany, lit_isMany, tidy_pairs, Ty.Made, Ty.Converts, Ty.Plain, mapType, namedAlike_nil, NamedAlike, unaryOps, prec_eq, prec_ne, prec_lt, prec_gt, prec_ge, prec_and, prec_or, prec_add, prec_sub, prec_mod, prec_div,
      stmtsOk_append, callE, dotE, fieldE, deferS, notNilE, $l,*]) <;> (repeat' with_reducible apply And.intro) <;> first | assumption | decide | skip))

theorem log_ok (hm : OkMethod S m) (n : Names) : StmtsOk S (logStmts n m) := by
  have h1 := argsOk_ids (S := S) (last := True) _ hm.pnames
  have h2 := argsOk_ids (S := S) (last := True) _ hm.rnames
  have h3 := elemsOk_ids (S := S) _ hm.pnames
  have h4 := elemsOk_ids (S := S) _ hm.rnames
  have hb : StmtsOk S (logBefore n m) := by
    unfold logBefore
    cases h : m.hasParams
    · gram []
    · have h5 : idExprs m.params ≠ [] := ids_ne (by cases hp : m.params <;> simp [Method.hasParams, hp] at h ⊢)
      gram [anyList, h1, h2, h3, h4, h5]
  have ha : StmtsOk S (logAfter n m) := by
    unfold logAfter
    cases h : m.hasResults
    · gram []
    · have h5 : idExprs m.results ≠ [] := ids_ne (by cases hp : m.results <;> simp [Method.hasResults, hp] at h ⊢)
      cases m.returnsError <;> gram [anyList, h1, h2, h3, h4, h5]
  have hp : StmtsOk S (passStmts (fieldE g!"_base") m) := pass_ok hm (fieldE_ok.mpr (by decide))
  unfold logStmts
  gram [hb, ha, hp]

theorem logrus_ok (hm : OkMethod S m) (n : Names) : StmtsOk S (logrusStmts n m) := by
  have h1 : (mapExpr m.params).Ok S true 0 := map_ok hm.pnames
  have h2 : (mapExpr m.results).Ok S true 0 := map_ok hm.rnames
  have hl : ∀ (level msg : Str) (e : Go.Expr), GoName level → (∃ ps, e = mapExpr ps) → e.Ok S true 0 → (logrusLine level e msg).Ok S true := by
    rintro level msg e h ⟨ps, rfl⟩ he
    unfold logrusLine
    unfold mapExpr at he ⊢
    have := he.2.2.2.2
    gram [h, this]
  have hb : StmtsOk S (logrusBefore n m) := by
    unfold logrusBefore
    cases m.hasParams
    · gram []
    · exact ⟨hl _ _ _ (by decide) ⟨_, rfl⟩ h1, trivial⟩
  have ha : StmtsOk S (logrusAfter n m) := by
    unfold logrusAfter
    cases m.hasResults
    · gram []
    · cases m.returnsError
      · exact ⟨hl _ _ _ (by decide) ⟨_, rfl⟩ h2, trivial⟩
      · refine ⟨⟨?_, ⟨hl _ _ _ (by decide) ⟨_, rfl⟩ h2, trivial⟩, hl _ _ _ (by decide) ⟨_, rfl⟩ h2, trivial⟩, trivial⟩
        gram []
  have hp : StmtsOk S (passStmts (fieldE g!"_base") m) := pass_ok hm (fieldE_ok.mpr (by decide))
  unfold logrusStmts
  gram [hb, ha, hp]

theorem prometheus_ok (hm : OkMethod S m) {vec : Str} (hv : GoName vec) : StmtsOk S (prometheusStmts vec m) := by
  have ha : StmtsOk S (prometheusAfter vec m) := by
    unfold prometheusAfter ifErrStmts
    cases m.returnsError <;> gram [hv]
  have hp : StmtsOk S (passStmts (fieldE g!"base") m) := pass_ok hm (fieldE_ok.mpr (by decide))
  unfold prometheusStmts
  gram [ha, hp]

theorem tracingAfter_ok (hm : OkMethod S m) {onError : List Stmt} (he : StmtsOk S onError) {fin : Str} (hf : GoName fin) :
    StmtsOk S (tracingAfter m onError fin) := by
  have h1 : (mapExpr m.params).Ok S true 0 := map_ok hm.pnames
  have h2 : (mapExpr m.results).Ok S true 0 := map_ok hm.rnames
  have hs : (spanDecoratorS m).Ok S true := by
    unfold spanDecoratorS
    unfold mapExpr at h1 h2 ⊢
    have h1' := h1.2.2.2.2
    have h2' := h2.2.2.2.2
    gram [h1', h2']
  have hs' : StmtsOk S [spanDecoratorS m] := by
    unfold spanDecoratorS at hs ⊢
    exact ⟨hs, trivial⟩
  unfold tracingAfter
  cases m.returnsError <;> gram [hs', he, hf]

theorem openTracing_ok (hm : OkMethod S m) {name type : Str} (hn : GoName name) : StmtsOk S (openTracingStmts name type m) := by
  have ha : StmtsOk S (tracingAfter m openTracingErrorS g!"Finish") := tracingAfter_ok hm (by
    unfold openTracingErrorS
    gram []) (by decide)
  have hp : StmtsOk S (passStmts (fieldE name) m) := pass_ok hm (fieldE_ok.mpr hn)
  unfold openTracingStmts
  gram [ha, hp]

theorem openCensus_ok (hm : OkMethod S m) {name type : Str} (hn : GoName name) : StmtsOk S (openCensusStmts name type m) := by
  have ha : StmtsOk S (tracingAfter m openCensusErrorS g!"End") := tracingAfter_ok hm (by
    unfold openCensusErrorS
    gram []) (by decide)
  have hp : StmtsOk S (passStmts (fieldE name) m) := pass_ok hm (fieldE_ok.mpr hn)
  unfold openCensusStmts
  gram [ha, hp]

theorem openTelemetry_ok (hm : OkMethod S m) {name span : Str} (hn : GoName name) : StmtsOk S (openTelemetryStmts name span m) := by
  have ha : StmtsOk S (tracingAfter m openTelemetryErrorS g!"End") := tracingAfter_ok hm (by
    unfold openTelemetryErrorS
    gram []) (by decide)
  have hp : StmtsOk S (passStmts (fieldE name) m) := pass_ok hm (fieldE_ok.mpr hn)
  unfold openTelemetryStmts
  gram [ha, hp]

theorem apm_ok (hm : OkMethod S m) (u : Uni) (component : Str) : StmtsOk S (apmStmts u component m) := by
  have ha : StmtsOk S (apmAfter m) := by
    unfold apmAfter
    cases m.returnsError <;> gram []
  have hl : StmtsOk S (m.params.flatMap (apmLabels u)) := by
    refine stmtsOk_flatMap _ fun p hp => ?_
    have := hm.pnames p hp
    unfold apmLabels apmLabel
    cases Param.isCtx p <;> gram [this]
  have hp : StmtsOk S (passStmts (fieldE g!"base") m) := pass_ok hm (fieldE_ok.mpr (by decide))
  unfold apmStmts
  gram [ha, hl, hp]

theorem validate_ok (hm : OkMethod S m) {onErr : List Stmt} (he : StmtsOk S onErr) {iface : Str} (hn : GoName iface) :
    StmtsOk S (validateStmts onErr iface m) := by
  have hl : StmtsOk S (m.params.flatMap (validateLoop onErr m)) := by
    refine stmtsOk_flatMap _ fun p hp => ?_
    have := hm.pnames p hp
    unfold validateLoop validateS
    cases m.acceptsContext && Param.isCtx p <;> gram [this, he]
  have hp : StmtsOk S (passStmts (fieldE iface) m) := pass_ok hm (fieldE_ok.mpr hn)
  unfold validateStmts
  cases m.returnsError
  · exact hp
  · gram [hl, hp]

theorem twirpInvalid_ok : StmtsOk S twirpInvalidStmts := by
  unfold twirpInvalidStmts invalidStmts
  gram []

theorem grpcInvalid_ok : StmtsOk S grpcInvalidStmts := by
  unfold grpcInvalidStmts invalidStmts
  gram []

theorem twirpError_ok (hm : OkMethod S m) {iface : Str} (hn : GoName iface) : StmtsOk S (twirpErrorStmts iface m) := by
  have hl : StmtsOk S (m.params.flatMap (injectLoop m)) := by
    refine stmtsOk_flatMap _ fun p hp => ?_
    have := hm.pnames p hp
    unfold injectLoop injectS
    cases m.acceptsContext && Param.isCtx p <;> gram [this]
  have hp : StmtsOk S (passStmts (fieldE iface) m) := pass_ok hm (fieldE_ok.mpr hn)
  unfold twirpErrorStmts
  cases m.returnsError
  · exact hp
  · gram [hl, hp]

theorem timeout_ok (hm : OkMethod S m) {iface : Str} (hn : GoName iface) (ht : GoName (m.name ++ g!"Timeout")) :
    StmtsOk S (timeoutStmts iface m) := by
  have hp : StmtsOk S (passStmts (fieldE iface) m) := pass_ok hm (fieldE_ok.mpr hn)
  unfold timeoutStmts timeoutField
  gram [hp, ht]

theorem breaker_ok (hm : OkMethod S m) {dec iface : Str} (hn : GoName iface) (hr : m.results ≠ []) : StmtsOk S (breakerStmts dec iface m) := by
  have h1 := many_ok (S := S) (lit := true) hm.rnames
  have h2 : idExprs m.results ≠ [] := by simpa [idExprs] using hr
  have h3 := hm.args
  have h4 := exprsOk_ids (S := S) (lit := true) _ hm.rnames
  have h5 := hm.name
  have ha : StmtsOk S (attemptStmts iface m) := by
    unfold attemptStmts ignoreS countStmts lockE
    unfold callExpr
    gram [resetStmts, h1, h2, h3, h4, h5, hn, flat_many, flat_ids]
  unfold breakerStmts openStmts lockE
  gram [ha]

theorem retry_ok (hm : OkMethod S m) {iface : Str} (hn : GoName iface) (hr : m.results ≠ []) : StmtsOk S (retryStmts iface m) := by
  have h2 : idExprs m.results ≠ [] := by simpa [idExprs] using hr
  have h3 := hm.args
  have h4 := exprsOk_ids (S := S) (lit := true) _ hm.rnames
  have h5 := hm.name
  have hw : ∀ r, StmtsOk S (waitS m :: r) ↔ StmtsOk S r := by
    intro r
    refine ⟨fun h => ?_, fun hr => ?_⟩
    · revert h
      unfold waitS
      cases m.acceptsContext <;> exact fun h => h.2
    · unfold waitS
      cases m.acceptsContext <;> gram [hr]
  have hc : ∀ r, StmtsOk S (callS iface m :: r) ↔ StmtsOk S r := by
    intro r
    refine ⟨fun h => h.2, fun hr => ?_⟩
    unfold callS callExpr
    gram [hr, h2, h3, h4, h5, hn, flat_many, flat_ids]
  unfold retryStmts moreE
  gram [hw, hc]

theorem rateLimit_ok (hm : OkMethod S m) : StmtsOk S (rateLimitStmts m) := by
  have hp : StmtsOk S (passStmts (fieldE g!"_base") m) := pass_ok hm (fieldE_ok.mpr (by decide))
  unfold rateLimitStmts
  cases m.acceptsContext && m.returnsError <;> gram [hp]

theorem robinPool_ok (hm : OkMethod S m) : StmtsOk S (robinPoolStmts m) := by
  have hp : StmtsOk S (passStmts poolE m) := pass_ok hm (by
    unfold poolE
    gram [])
  unfold robinPoolStmts
  gram [hp]

theorem syncPool_ok (hm : OkMethod S m) : StmtsOk S (syncPoolStmts m) := by
  have hp : StmtsOk S (passStmts (.id g!"_impl") m) := pass_ok hm (by gram [])
  unfold syncPoolStmts
  gram [hp]

theorem flat_all : ∀ ps : List Param, ∀ e ∈ idExprs ps, e.IsName := by
  intro ps e he
  obtain ⟨p, _, rfl⟩ := List.mem_map.mp he
  trivial

theorem res_ok {lit : Bool} : ∀ ps : List Param, (∀ p ∈ ps, GoName p.name) → ExprsOk S lit (resExprs ps)
  | [], _ => by simp [resExprs, ExprsOk]
  | p :: ps, h => ⟨⟨by show GoName _; decide, h p (by simp)⟩, res_ok ps fun x hx => h x (List.mem_cons_of_mem _ hx)⟩

theorem all_res (ps : List Param) : (resExprs ps).all (!·.isMany) = true := by
  simp only [resExprs, List.all_eq_true, List.mem_map]
  rintro e ⟨p, _, rfl⟩
  rfl

theorem implStmts_ok (hm : OkMethod S m) : StmtsOk S (implStmts m) := by
  have h3 := hm.args
  have h4 := exprsOk_ids (S := S) (lit := true) _ hm.rnames
  have h5 := hm.name
  have h6 := flat_all m.results
  unfold implStmts Method.hasResults
  cases hr : m.results with
  | nil => unfold callExpr; gram [h3, h5]
  | cons p ps =>
    rw [← hr]
    have h2 : idExprs m.results ≠ [] := by simp [idExprs, hr]
    have hb : m.results.length > 0 := by simp [hr]
    unfold callExpr
    gram [hb, h2, h3, h4, h5, h6, flat_many, flat_ids]

theorem fallback_ok (hm : OkMethod S m) {type : Str} (ht : S.type (lexed type)) : StmtsOk S (fallbackStmts type m) := by
  have h1 := elemsOk_ids (S := S) _ hm.rnames
  have h2 := res_ok (S := S) (lit := true) _ hm.rnames
  have hi := implStmts_ok hm
  have hw : StmtsOk S (wrapStmts m) := by
    unfold wrapStmts
    cases m.returnsError <;> gram []
  have hs : StmtsOk S [sendStmt m] := by
    unfold sendStmt sendChS doneS
    cases m.acceptsContext <;> gram [h1]
  have hl : StmtsOk S (launcherStmts type m) := by
    unfold launcherStmts launchBody childStmts countE
    gram [hi, hw, hs, ht]
  have hg : StmtsOk S (gotStmts m) := by
    unfold gotStmts joinE countE
    cases m.returnsError
    · cases m.hasResults <;> gram [h2, all_res]
    · gram [h2, all_res]
  have hd : StmtsOk S (doneStmts m) := by
    unfold doneStmts joinE
    cases m.returnsError <;> gram []
  have ha : StmtsOk S (awaitStmts m) := by
    unfold awaitStmts recvS doneS
    cases m.acceptsContext
    · cases m.returnsError
      · cases m.hasResults <;> gram [hg]
      · cases m.hasResults <;> gram [h2, all_res]
    · cases m.hasResults <;> gram [hg, hd]
  have hr : (resultsTy m.results).Ok S := by
    have := hm.results
    unfold resultsTy resultsStructType
    cases m.results.isEmpty <;> gram [this]
  unfold fallbackStmts countE
  cases m.returnsError <;> cases m.acceptsContext <;> gram [hl, ha, hr]

end Gowrap.Tmpl

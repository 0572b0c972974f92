import Verif.Proofs.GoDen
import Verif.Proofs.TmElasticapm
/-!
# The meaning of the code generated by templates/elasticapm
-/

namespace Gowrap.Tmpl

open Gowrap Go

set_option maxRecDepth 100000

/-- `_d.setLabel(span, "…", p)` -/
def apmLabel (u : Uni) (p : Param) : Stmt :=
  .expr (callE (fieldE g!"setLabel") [.id g!"span", .str (u.snake p.name), .id p.name])

def apmLabels (u : Uni) (p : Param) : List Stmt := bif Param.isCtx p then [] else [apmLabel u p]

/-- The deferred function. -/
def apmAfter (m : Method) : List Stmt :=
  (bif m.returnsError then [.cond (notNilE (.id g!"err")) [.expr (callE (fieldE g!"captureError") [.id g!"ctx", .id g!"err"])]] else []) ++
    [.expr (callE (fieldE g!"endSpan") [.id g!"span"])]

def apmStmts (u : Uni) (component : Str) (m : Method) : List Stmt :=
  .define [.id g!"span", .id g!"ctx"] [callE (fieldE g!"startSpan") [.id g!"ctx", .str (component ++ (g!"." ++ m.name)), fieldE g!"spanType"]] ::
  deferS (apmAfter m) :: .many (m.params.flatMap (apmLabels u)) :: passStmts (fieldE g!"base") m

theorem tmElasticapm_param (u : Uni) (d : Inputs) (m : Method) (p : Param) : tmElasticapm.paramStmts u d m p = apmLabels u p := by
  unfold Template.paramStmts apmLabels
  generalize Param.isCtx p = c
  cases m.acceptsContext <;> cases c <;> krfl

theorem tmElasticapm_loop (u : Uni) (d : Inputs) (m : Method) : tmElasticapm.loopStmts u d m = m.params.flatMap (apmLabels u) := by
  show m.params.flatMap (tmElasticapm.paramStmts u d m) = _
  rw [show tmElasticapm.paramStmts u d m = apmLabels u from funext (tmElasticapm_param u d m)]

theorem tmElasticapm_method (u : Uni) (d : Inputs) (m : Method) (h : m.acceptsContext = true → m.params ≠ []) :
    tmElasticapm.methodDecls u d m = bif m.acceptsContext then
      [.method g!"_d" (.name (tmElasticapm.names u d).dec) m.name (paramDecls m.params) (paramDecls m.results)
        (apmStmts u (tmElasticapm.names u d).component m)] else [] := by
  unfold Template.methodDecls Template.methodFill apmStmts
  rw [← tmElasticapm_loop u d m]
  obtain ⟨doc, cm, nm, ps, rs, re, ac⟩ := m
  generalize tmElasticapm.loopStmts u d _ = l
  generalize tmElasticapm.loopText u d _ = t
  cases ac
  · cases ps <;> cases rs <;> cases re <;> krfl
  · cases ps with
    | nil => exact absurd rfl (h rfl)
    | cons p ps => cases rs <;> cases re <;> krfl

theorem apm_after (d : Apm) (m : Method) :
    inScope (declared (apmAfter m)) (den (d.link m) (apmAfter m) (some []) .skip) = Apm.after m := by
  unfold apmAfter Apm.after Apm.link
  cases hre : m.returnsError
  · go_simp [ifErr, hre]
  · go_simp [ifErr, hre]

theorem apm_labels (d : Apm) (m : Method) (k : Stm) : ∀ ps : List Param, Plain (ps.map (·.name)) →
    den (d.link m) (ps.flatMap (apmLabels d.uni)) none k = .seq (d.labels (ps.map (·.name))) k
  | [], _ => rfl
  | p :: ps, h => by
    rw [List.flatMap_cons, den_append, apm_labels d m k ps h.cons.2, List.map_cons, Apm.labels]
    unfold apmLabels Param.isCtx apmLabel
    by_cases hc : p.name = g!"ctx"
    · rw [if_pos hc, decide_eq_true hc]
      rfl
    · rw [if_neg hc, decide_eq_false hc]
      go_simp [Apm.link, ev_id h.cons.1, h.cons.1]

theorem tmElasticapm_den (d : Apm) (m : Method) (hp : Plain m.pnames) :
    denBody (d.link m) (apmStmts d.uni d.component m) = d.body m := by
  unfold denBody apmStmts Apm.body
  rw [den_cons, den_defer, apm_after d m, den_cons,
    den_pass (base := value d.base) (by rfl)
      (fun k => by go_simp [Apm.link]) hp rfl, stm_many, apm_labels d m _ _ hp]
  · go_simp [Apm.link, define_two]
    rfl
  · unfold apmAfter; cases m.returnsError <;> rfl

end Gowrap.Tmpl

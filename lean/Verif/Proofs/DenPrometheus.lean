import Verif.Proofs.GoDen
import Verif.Proofs.TmPrometheus
/-!
# The meaning of the code generated by templates/prometheus
-/

namespace Gowrap.Tmpl

open Gowrap Go

set_option maxRecDepth 100000

/-- `if err != nil { body }` for methods that return an error -/
def ifErrStmts (m : Method) (body : List Stmt) : List Stmt :=
  bif m.returnsError then [.cond (notNilE (.id g!"err")) body] else []

def prometheusAfter (vec : Str) (m : Method) : List Stmt :=
  .define [.id g!"result"] [.str g!"ok"] :: (ifErrStmts m [.assign [.id g!"result"] [.str g!"error"]] ++
    [.expr (callE (.sel (callE (dotE vec g!"WithLabelValues") [fieldE g!"instanceName", .str m.name, .id g!"result"]) g!"Observe")
      [callE (.sel (callE (dotE g!"time" g!"Since") [.id g!"_since"]) g!"Seconds") []])])

def prometheusStmts (vec : Str) (m : Method) : List Stmt :=
  .define [.id g!"_since"] [callE (dotE g!"time" g!"Now") []] :: deferS (prometheusAfter vec m) :: passStmts (fieldE g!"base") m

theorem tmPrometheus_method (u : Uni) (d : Inputs) (m : Method) :
    tmPrometheus.methodDecls u d m = [.method g!"_d" (.name (tmPrometheus.names u d).dec) m.name (paramDecls m.params) (paramDecls m.results)
      (prometheusStmts (u.lower d.name ++ g!"DurationSummaryVec") m)] := by
  obtain ⟨doc, cm, nm, ps, rs, re, ac⟩ := m
  cases ps <;> cases rs <;> cases re <;> krfl

theorem vec_ne (d : Prometheus) : d.vec ≠ g!"_d" := by
  intro h
  have := congrArg List.length h
  simp [Prometheus.vec] at this

theorem prometheus_after (d : Prometheus) (m : Method) :
    inScope (declared (prometheusAfter d.vec m)) (den (d.link m) (prometheusAfter d.vec m) (some []) .skip) = d.after m := by
  unfold prometheusAfter Prometheus.after Prometheus.link ifErrStmts
  cases hre : m.returnsError
  · go_simp [ifErr, hre, vec_ne d]
  · go_simp [ifErr, hre, vec_ne d]

theorem tmPrometheus_den (d : Prometheus) (m : Method) (hp : Plain m.pnames) :
    denBody (d.link m) (prometheusStmts d.vec m) = d.body m := by
  unfold denBody prometheusStmts Prometheus.body
  rw [den_cons, den_defer, prometheus_after d m,
    den_pass (base := value d.base) (by rfl) (fun k => by go_simp [Prometheus.link]) hp rfl]
  · go_simp [Prometheus.link]
  · unfold prometheusAfter ifErrStmts; cases m.returnsError <;> rfl

end Gowrap.Tmpl

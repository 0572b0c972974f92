import Verif.Proofs.GoDen
import Verif.Proofs.TmRatelimit
/-!
# The meaning of the code generated by templates/ratelimit
-/

namespace Gowrap.Tmpl

open Gowrap Go

set_option maxRecDepth 100000

def rateLimitStmts (m : Method) : List Stmt :=
  (bif m.acceptsContext && m.returnsError then
    .select [.case (.expr (.un g!"<-" (callE (dotE g!"ctx" g!"Done") [])))
        [.assign [.id g!"err"] [callE (dotE g!"ctx" g!"Err") []], .ret []],
      .case (.expr (.un g!"<-" (fieldE g!"_ticks"))) []]
  else .expr (.un g!"<-" (fieldE g!"_ticks"))) :: passStmts (fieldE g!"_base") m

theorem tmRatelimit_method (u : Uni) (d : Inputs) (m : Method) :
    tmRatelimit.methodDecls u d m =
      [.method g!"_d" (.ptr (.name (tmRatelimit.names u d).dec)) m.name (paramDecls m.params) (paramDecls m.results) (rateLimitStmts m)] := by
  obtain ⟨doc, cm, nm, ps, rs, re, ac⟩ := m
  cases ac <;> cases ps <;> cases re <;> cases rs <;> krfl

theorem tmRatelimit_den (base : Val) (m : Method) (hp : Plain m.pnames) :
    denBody (rateLimitLink base m) (rateLimitStmts m) = rateLimit base m := by
  unfold denBody rateLimitStmts rateLimit
  have hi : (rateLimitLink base m).impl (fieldE g!"_base") = true := by rfl
  have hr : ∀ k, ev (rateLimitLink base m) (fieldE g!"_base") 1 k = k [base] := fun k => by go_simp [rateLimitLink]
  rw [den_cons, den_pass (base := value base) hi hr hp rfl]
  cases m.acceptsContext <;> cases m.returnsError <;>
    go_simp [rateLimitLink, numeral, clauseComms, Clause.comm, Expr.recvFrom, sentVals, bindRecv, Expr.chan, clauses]
  congr 1

end Gowrap.Tmpl

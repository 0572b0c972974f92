import Verif.Model.Links
import Verif.Proofs.GoDen
import Verif.Proofs.TmLog
/-!
# The meaning of the code generated by templates/log
-/

namespace Gowrap.Tmpl

open Gowrap Go

set_option maxRecDepth 100000

def logBefore (n : Names) (m : Method) : List Stmt :=
  bif m.hasParams then [.define [.id g!"_params"] [anyList [.str (n.dec ++ (g!": calling " ++ (m.name ++ g!" with params:"))), .many (idExprs m.params)]],
      .expr (callE (.sel (fieldE g!"_stdlog") g!"Println") [.spread (.id g!"_params")])]
  else [.expr (callE (.sel (fieldE g!"_stdlog") g!"Println") [.str (n.dec ++ (g!": calling " ++ m.name))])]

def logAfter (n : Names) (m : Method) : List Stmt :=
  bif m.hasResults then [.define [.id g!"_results"] [anyList [.str (n.dec ++ (g!": " ++ (m.name ++ g!" returned results:"))), .many (idExprs m.results)]],
      bif m.returnsError then
        .condElse (notNilE (.id g!"err")) [.expr (callE (.sel (fieldE g!"_errlog") g!"Println") [.spread (.id g!"_results")])]
          [.expr (callE (.sel (fieldE g!"_stdlog") g!"Println") [.spread (.id g!"_results")])]
      else .expr (callE (.sel (fieldE g!"_stdlog") g!"Println") [.spread (.id g!"_results")])]
  else [.expr (callE (.sel (fieldE g!"_stdlog") g!"Println") [.str (n.dec ++ (g!": " ++ (m.name ++ g!" finished")))])]

def logStmts (n : Names) (m : Method) : List Stmt :=
  logBefore n m ++ (deferS (logAfter n m) :: passStmts (fieldE g!"_base") m)

theorem tmLog_method (u : Uni) (d : Inputs) (m : Method) :
    tmLog.methodDecls u d m = [.method g!"_d" (.name (tmLog.names u d).dec) m.name (paramDecls m.params) (paramDecls m.results)
      (logStmts (tmLog.names u d) m)] := by
  obtain ⟨doc, cm, nm, ps, rs, re, ac⟩ := m
  cases ps <;> cases rs <;> cases re <;> krfl

theorem log_before (d : Log) (n : Names) (hn : n.dec = d.dec) (m : Method) (hp : Plain m.pnames) (k : Stm) :
    den (d.link m) (logBefore n m) none k = .seq (d.before m) k := by
  unfold logBefore Log.before Log.link
  cases m.hasParams
  · go_simp [hn]
  · go_simp [hn, evs_params hp]

theorem log_after (d : Log) (n : Names) (hn : n.dec = d.dec) (m : Method) (hr : Plain m.rnames) :
    inScope (declared (logAfter n m)) (den (d.link m) (logAfter n m) (some []) .skip) = d.after m := by
  unfold logAfter Log.after Log.link
  cases m.hasResults
  · go_simp [hn]
  · cases hre : m.returnsError
    · go_simp [hn, evs_results hr, ifErr, hre]
    · go_simp [hn, evs_results hr, ifErr, hre]

theorem tmLog_den (d : Log) (n : Names) (hn : n.dec = d.dec) (m : Method) (hp : Plain m.pnames) (hr : Plain m.rnames) :
    denBody (d.link m) (logStmts n m) = d.body m := by
  unfold denBody logStmts Log.body
  rw [den_append, log_before d n hn m hp, den_defer, log_after d n hn m hr,
    den_pass (base := value d.base) (by rfl) (fun k => by go_simp [Log.link]) hp rfl]
  · rfl
  · unfold logAfter; cases m.hasResults <;> cases m.returnsError <;> rfl

end Gowrap.Tmpl

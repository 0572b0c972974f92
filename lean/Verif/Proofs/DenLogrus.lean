import Verif.Proofs.GoDen
import Verif.Proofs.TmLogrus
/-!
# The meaning of the code generated by templates/logrus
-/

namespace Gowrap.Tmpl

open Gowrap Go

set_option maxRecDepth 100000

/-- `_d._log.WithFields(logrus.Fields(fields)).level(msg)` -/
def logrusLine (level : Str) (fields : Go.Expr) (msg : Str) : Stmt :=
  .expr (callE (.sel (callE (.sel (fieldE g!"_log") g!"WithFields") [callE (dotE g!"logrus" g!"Fields") [.many [fields]]]) level) [.str msg])

def logrusBefore (n : Names) (m : Method) : List Stmt :=
  bif m.hasParams then [logrusLine g!"Debug" (mapExpr m.params) (n.dec ++ (g!": calling " ++ m.name))]
  else [.expr (callE (.sel (fieldE g!"_log") g!"Debug") [.str (n.dec ++ (g!": calling " ++ m.name))])]

def logrusAfter (n : Names) (m : Method) : List Stmt :=
  bif m.hasResults then
    [bif m.returnsError then
        .condElse (notNilE (.id g!"err"))
          [logrusLine g!"Error" (mapExpr m.results) (n.dec ++ (g!": method " ++ (m.name ++ g!" returned an error")))]
          [logrusLine g!"Debug" (mapExpr m.results) (n.dec ++ (g!": method " ++ (m.name ++ g!" finished")))]
      else logrusLine g!"Debug" (mapExpr m.results) (n.dec ++ (g!": method " ++ (m.name ++ g!" finished")))]
  else [.expr (callE (.sel (fieldE g!"_log") g!"Debug") [.str (n.dec ++ (g!": " ++ (m.name ++ g!" finished")))])]

def logrusStmts (n : Names) (m : Method) : List Stmt :=
  logrusBefore n m ++ (deferS (logrusAfter n m) :: passStmts (fieldE g!"_base") m)

theorem tmLogrus_method (u : Uni) (d : Inputs) (m : Method) :
    tmLogrus.methodDecls u d m = [.method g!"_d" (.name (tmLogrus.names u d).dec) m.name (paramDecls m.params) (paramDecls m.results)
      (logrusStmts (tmLogrus.names u d) m)] := by
  obtain ⟨doc, cm, nm, ps, rs, re, ac⟩ := m
  cases ps <;> cases rs <;> cases re <;> krfl

theorem global_getAll (x : Str) (ys : List Str) (k : List Val → Stm) :
    Stm.global x (.getAll ys k) = .getAll ys fun vs => .global x (k vs) := by
  funext env
  simp only [Stm.global, Stm.getAll]
  cases env x <;> cases env.all ys <;> rfl

theorem get_getAll (x : Str) (ys : List Str) (k : Val → List Val → Stm) :
    (Stm.get x fun v => .getAll ys (k v)) = .getAll ys fun vs => .get x fun v => k v vs := by
  funext env
  simp only [Stm.get, Stm.getAll]
  cases env x <;> cases env.all ys <;> rfl

theorem ite_getAll (b : Bool) (ys : List Str) (k k' : List Val → Stm) :
    Stm.ite b (.getAll ys k) (.getAll ys k') = .getAll ys fun vs => .ite b (k vs) (k' vs) := by cases b <;> rfl

theorem logrus_before (d : Logrus) (n : Names) (hn : n.dec = d.dec) (m : Method) (hp : Plain m.pnames) (k : Stm) :
    den (d.link m) (logrusBefore n m) none k = .seq (d.before m) k := by
  unfold logrusBefore Logrus.before Logrus.link logrusLine Logrus.line
  cases m.hasParams
  · go_simp [hn]
  · go_simp [hn, ev_paramsMap hp, global_getAll]

theorem logrus_after (d : Logrus) (n : Names) (hn : n.dec = d.dec) (m : Method) (hr : Plain m.rnames) :
    inScope (declared (logrusAfter n m)) (den (d.link m) (logrusAfter n m) (some []) .skip) = d.after m := by
  unfold logrusAfter Logrus.after Logrus.link logrusLine Logrus.line
  cases m.hasResults
  · go_simp [hn]
  · cases hre : m.returnsError
    · go_simp [hn, ev_resultsMap hr, ifErr, hre, global_getAll]
    · go_simp [hn, ev_resultsMap hr, ifErr, hre, global_getAll, ite_getAll, get_getAll]

theorem tmLogrus_den (d : Logrus) (n : Names) (hn : n.dec = d.dec) (m : Method) (hp : Plain m.pnames) (hr : Plain m.rnames) :
    denBody (d.link m) (logrusStmts n m) = d.body m := by
  unfold denBody logrusStmts Logrus.body
  rw [den_append, logrus_before d n hn m hp, den_defer, logrus_after d n hn m hr,
    den_pass (base := value d.base) (by rfl) (fun k => by go_simp [Logrus.link]) hp rfl]
  · rfl
  · unfold logrusAfter; cases m.hasResults <;> cases m.returnsError <;> rfl

end Gowrap.Tmpl

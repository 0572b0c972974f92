import Verif.Proofs.GoDen
import Verif.Proofs.TmTimeout
/-!
# The meaning of the code generated by templates/timeout
-/

namespace Gowrap.Tmpl

open Gowrap Go

set_option maxRecDepth 100000

/-- `_d.config.<Method>Timeout` -/
abbrev timeoutField (m : Method) : Go.Expr := .sel (fieldE g!"config") (m.name ++ g!"Timeout")

def timeoutStmts (iface : Str) (m : Method) : List Stmt :=
  .var g!"cancelFunc" (.func [] .none) ::
  .cond (.bin g!">" (timeoutField m) (.num g!"0"))
    [.assign [.id g!"ctx", .id g!"cancelFunc"] [callE (dotE g!"context" g!"WithTimeout") [.id g!"ctx", timeoutField m]],
      .defer (callE (.id g!"cancelFunc") [])] ::
  passStmts (fieldE iface) m

theorem tmTimeout_method (u : Uni) (d : Inputs) (m : Method) (h : m.acceptsContext = true → m.params ≠ []) :
    tmTimeout.methodDecls u d m = bif m.acceptsContext then
      [.method g!"_d" (.name (tmTimeout.names u d).dec) m.name (paramDecls m.params) (paramDecls m.results) (timeoutStmts d.name m)] else [] := by
  obtain ⟨doc, cm, nm, ps, rs, re, ac⟩ := m
  cases ac
  · cases ps <;> cases rs <;> cases re <;> krfl
  · cases ps with
    | nil => exact absurd rfl (h rfl)
    | cons p ps => cases rs <;> cases re <;> krfl

theorem assign_two (fn : Str) (t : Val) (k : Stm) (v : Val) (env : Env) (h : env g!"cancelFunc" = some v) :
    (Stm.get g!"ctx" fun c => .lib2 fn [c, t] fun c' f => .seq (.assignAll [g!"ctx", g!"cancelFunc"] [c', f]) k) env =
    (Stm.get g!"ctx" fun c => .lib2 fn [c, t] fun c' f => .seq (.assign g!"ctx" c') (.seq (.assign g!"cancelFunc" f) k)) env := by
  cases hc : env g!"ctx" with
  | none => simp [Stm.get, hc]
  | some c =>
    rw [Stm.get_apply hc, Stm.get_apply hc]
    refine Stm.lib2_congr fun c' f => ?_
    simp [Stm.seq, Stm.assign, Stm.assignAll, Env.all, hc, h, Env.set, Env.setAll]

theorem tmTimeout_den (iface : Str) (base : Val) (t : Int) (m : Method) (hp : Plain m.pnames) :
    denBody (timeoutLink iface base t m) (timeoutStmts iface m) = timeout base t m := by
  unfold denBody timeoutStmts timeout
  have hi : (timeoutLink iface base t m).impl (fieldE iface) = true := by go_simp [timeoutLink]
  have hr : ∀ k, ev (timeoutLink iface base t m) (fieldE iface) 1 k = k [base] := fun k => by go_simp [timeoutLink]
  rw [den_cons, den_cons, den_pass (base := value base) hi hr hp rfl]
  go_simp [timeoutLink, numeral]
  unfold zeroOf
  by_cases ht : 0 < t
  · rw [if_pos ht, decide_eq_true ht]
    funext env
    simp only [Stm.seq, Stm.declare]
    cases hc : env g!"cancelFunc" with
    | some v => rfl
    | none =>
      simp only [Tree.bind]
      rw [Stm.ite_eq, if_pos rfl]
      simp only [Stm.global]
      cases env.set g!"cancelFunc" .nil g!"context" with
      | some v => rfl
      | none => exact assign_two _ _ _ .nil _ (by simp [Env.set])
  · rw [if_neg ht, decide_eq_false ht]
    rfl

end Gowrap.Tmpl

import Verif.Proofs.GoDen
import Verif.Proofs.TmTwirpError
/-!
# The meaning of the code generated by templates/twirp_error
-/

namespace Gowrap.Tmpl

open Gowrap Go

set_option maxRecDepth 100000

/-- `defer injectRequestDataToError(p, &err)` -/
def injectS (p : Str) : Stmt := .defer (callE (.id g!"injectRequestDataToError") [.id p, .un g!"&" (.id g!"err")])

def injectLoop (m : Method) (p : Param) : List Stmt :=
  bif m.acceptsContext && Param.isCtx p then [] else [injectS p.name]

def twirpErrorStmts (iface : Str) (m : Method) : List Stmt :=
  bif m.returnsError then .many (m.params.flatMap (injectLoop m)) :: passStmts (fieldE iface) m else passStmts (fieldE iface) m

/-- The body of `injectRequestDataToError`. -/
def injectStmts : List Stmt :=
  [.define [.id g!"err"] [.un g!"*" (.id g!"perr")],
    .cond (notNilE (.id g!"err"))
      [.define [.id g!"twerr", .id g!"ok"] [.assert (.id g!"err") (.qual g!"twirp" g!"Error")],
        .cond (.un g!"!" (.id g!"ok")) [.assign [.id g!"twerr"] [callE (dotE g!"twirp" g!"InternalErrorWith") [.id g!"err"]]],
        .define [.id g!"jsonReq", .id g!"_"] [callE (dotE g!"json" g!"Marshal") [.id g!"req"]],
        .assign [.un g!"*" (.id g!"perr")] [callE (dotE g!"twerr" g!"WithMeta") [.str g!"request", callE (.id g!"string") [.id g!"jsonReq"]]]]]

theorem tmTwirpError_param (u : Uni) (d : Inputs) (m : Method) (p : Param) : tmTwirpError.paramStmts u d m p = injectLoop m p := by
  unfold Template.paramStmts injectLoop
  generalize Param.isCtx p = c
  cases m.acceptsContext <;> cases c <;> krfl

theorem tmTwirpError_loop (u : Uni) (d : Inputs) (m : Method) : tmTwirpError.loopStmts u d m = m.params.flatMap (injectLoop m) := by
  show m.params.flatMap (tmTwirpError.paramStmts u d m) = _
  rw [show tmTwirpError.paramStmts u d m = injectLoop m from funext (tmTwirpError_param u d m)]

theorem tmTwirpError_method (u : Uni) (d : Inputs) (m : Method) :
    tmTwirpError.methodDecls u d m =
      [.method g!"_d" (.name (tmTwirpError.names u d).dec) m.name (paramDecls m.params) (paramDecls m.results)
        (twirpErrorStmts d.name m)] := by
  unfold Template.methodDecls Template.methodFill twirpErrorStmts
  rw [← tmTwirpError_loop u d m]
  obtain ⟨doc, cm, nm, ps, rs, re, ac⟩ := m
  generalize tmTwirpError.loopStmts u d _ = l
  generalize tmTwirpError.loopText u d _ = t
  cases ps <;> cases rs <;> cases re <;> krfl

/-- `injectRequestDataToError` is declared in the file. -/
theorem tmTwirpError_inject (u : Uni) (d : Inputs) : .func g!"injectRequestDataToError" [.mk [g!"req"] (.iface []), .mk [g!"perr"] (.ptr (.name g!"error"))] .none injectStmts
    ∈ tmTwirpError.decls u d := by
  have : (tmTwirpError.decls u d)[4]? = some (.func g!"injectRequestDataToError" [.mk [g!"req"] (.iface []), .mk [g!"perr"] (.ptr (.name g!"error"))] .none injectStmts) := by
    krfl
  exact List.mem_of_getElem? this

/-- Computes with the variables of `injectRequestDataToError`. -/
macro "inject_simp" "[" ls:Lean.Parser.Tactic.simpLemma,* "]" : tactic =>
  `(tactic| simp [assertsTwirp, Stm.get, Stm.seq, Stm.declare, Stm.global, inScope, defineAll, Block.has, bindAll, Env.set, Env.leave,
      Stm.lib1, Stm.lib2, Stm.op, Stm.orPanic_eq, Stm.ite, Stm.skip, Stm.assign, $ls,*])

theorem den_inject (G : GoTypes) (req : Val) : callInject G injectStmts req = injectRequest G req := by
  funext env
  unfold callInject injectRequest injectStmts
  cases he : env g!"err" with
  | none => env_simp [he]
  | some err =>
    rw [Stm.get_apply he, Stm.get_apply he]
    unfold denBody
    go_simp [injectLink]
    have hself : env.set g!"err" err = env := by
      funext y
      by_cases h : y = g!"err"
      · subst h; simp [Env.set, he]
      · simp [Env.set, h]
    cases hn : err.isNil <;> cases ht : G.twirpError err <;> inject_simp [hn, ht, he, hself]
    · funext r
      cases r <;> inject_simp [he, hself]
      funext r
      cases r <;> inject_simp [he, hself]
      funext r
      cases r <;> inject_simp [he, hself]
    · funext r
      cases r <;> inject_simp [he, hself]
      funext r
      cases r <;> inject_simp [he, hself]

theorem den_injects (G : GoTypes) (iface : Str) (base : Val) (m : Method) (k : Stm) :
    ∀ ps : List Param, Plain (ps.map (·.name)) →
    den (twirpErrorLink G iface base injectStmts m) (ps.flatMap (injectLoop m)) none k = twirpDefers G m k (ps.map (·.name))
  | [], _ => rfl
  | p :: ps, h => by
    rw [List.flatMap_cons, den_append, den_injects G iface base m k ps h.cons.2, List.map_cons, twirpDefers]
    unfold injectLoop notContext
    rw [show Param.isCtx p = decide (p.name = g!"ctx") from rfl]
    cases hc : (m.acceptsContext && decide (p.name = g!"ctx"))
    · show den _ [_] none _ = _
      unfold injectS
      go_simp [twirpErrorLink, h.cons.1, den_inject]
    · rfl

theorem tmTwirpError_den (G : GoTypes) (iface : Str) (base : Val) (m : Method) (hp : Plain m.pnames) :
    denBody (twirpErrorLink G iface base injectStmts m) (twirpErrorStmts iface m) = twirpError G base m := by
  unfold denBody twirpErrorStmts twirpError
  have hi : (twirpErrorLink G iface base injectStmts m).impl (fieldE iface) = true := by go_simp [twirpErrorLink]
  have hr : ∀ k, ev (twirpErrorLink G iface base injectStmts m) (fieldE iface) 1 k = k [base] := fun k => by go_simp [twirpErrorLink]
  cases m.returnsError
  · exact den_pass (base := value base) hi hr hp rfl _ _
  · show den _ (_ :: _) none _ = _
    rw [den_cons, den_pass (base := value base) hi hr hp rfl, stm_many, den_injects G iface base m _ _ hp]
    rfl

end Gowrap.Tmpl

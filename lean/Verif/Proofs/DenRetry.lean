import Verif.Proofs.GoDen
import Verif.Proofs.TmRetry
/-!
# The meaning of the code generated by templates/retry
-/

namespace Gowrap.Tmpl

open Gowrap Go

set_option maxRecDepth 100000

/-- What the loop waits for. -/
def waitS (m : Method) : Stmt :=
  bif m.acceptsContext then
    .select [.case (.expr (.un g!"<-" (callE (dotE g!"ctx" g!"Done") []))) [.ret []], .case (.expr (.un g!"<-" (dotE g!"_ticker" g!"C"))) []]
  else .expr (.un g!"<-" (dotE g!"_ticker" g!"C"))

/-- `results = _d.I.M(args)` -/
def callS (iface : Str) (m : Method) : Stmt := .assign [.many (idExprs m.results)] [callExpr (fieldE iface) m]

/-- `_i < _d._retryCount && err != nil` -/
def moreE : Go.Expr := .bin g!"&&" (.bin g!"<" (.id g!"_i") (fieldE g!"_retryCount")) (notNilE (.id g!"err"))

def retryStmts (iface : Str) (m : Method) : List Stmt :=
  [callS iface m,
    .cond (.bin g!"||" (.bin g!"==" (.id g!"err") (.id g!"nil")) (.bin g!"<" (fieldE g!"_retryCount") (.num g!"1"))) [.ret []],
    .define [.id g!"_ticker"] [callE (dotE g!"time" g!"NewTicker") [fieldE g!"_retryInterval"]],
    .defer (callE (dotE g!"_ticker" g!"Stop") []),
    .loop (.define [.id g!"_i"] [.num g!"0"]) moreE (.inc (.id g!"_i")) [waitS m, callS iface m],
    .ret []]

theorem tmRetry_method (u : Uni) (d : Inputs) (m : Method) (h : m.returnsError = true → m.results ≠ []) :
    tmRetry.methodDecls u d m = bif m.returnsError then
      [.method g!"_d" (.name (tmRetry.names u d).dec) m.name (paramDecls m.params) (paramDecls m.results)
        (retryStmts d.name m)] else [] := by
  obtain ⟨doc, cm, nm, ps, rs, re, ac⟩ := m
  cases re
  · cases ps <;> cases rs <;> cases ac <;> krfl
  · cases rs with
    | nil => exact absurd rfl (h rfl)
    | cons p rs => cases ps <;> cases ac <;> krfl

/-- The names of the fields are distinct. -/
def Retry.Fields (d : Retry) : Prop := d.iface ∉ [g!"_retryCount", g!"_retryInterval"]

theorem Retry.Fields.ne {d : Retry} (h : d.Fields) :
    (d.iface ≠ g!"_retryCount" ∧ d.iface ≠ g!"_retryInterval") ∧ (g!"_retryCount" ≠ d.iface ∧ g!"_retryInterval" ≠ d.iface) := by
  simp only [Retry.Fields, List.mem_cons, List.not_mem_nil, or_false, not_or] at h
  exact ⟨h, Ne.symm h.1, Ne.symm h.2⟩

variable {d : Retry} {m : Method}

/-- One iteration. -/
def Retry.again (d : Retry) (m : Method) : Stm :=
  if m.acceptsContext then .get g!"ctx" fun ctx => .op (.doneOrTick ctx) fun c => match c with
    | .done => .ret
    | .other => m.assignCall d.base .skip
  else .op .tick fun _ => m.assignCall d.base .skip

theorem stm_call (hp : Plain m.pnames) (b : Block) (k : Stm) :
    stm (d.link m) (callS d.iface m) b k = m.assignCall d.base k := by
  have hi : (d.link m).impl (fieldE d.iface) = true := by go_simp [Retry.link]
  have hr : ∀ k, ev (d.link m) (fieldE d.iface) 1 k = k [d.base] := fun k => by go_simp [Retry.link]
  exact den_assignCall (base := value d.base) hi hr hp b k

theorem stm_wait (b : Block) (k : Stm) :
    stm (d.link m) (waitS m) b k = if m.acceptsContext then .get g!"ctx" fun ctx => .op (.doneOrTick ctx) fun c => match c with
      | .done => .ret
      | .other => k
    else .op .tick fun _ => k := by
  unfold waitS
  cases hc : m.acceptsContext
  · go_simp [Retry.link, Expr.chan]
  · go_simp [Retry.link, Expr.chan, clauseComms, Clause.comm, Expr.recvFrom, sentVals, bindRecv, clauses]
    congr 1

theorem retry_again (hp : Plain m.pnames) :
    inScope (declared [waitS m, callS d.iface m]) (den (d.link m) [waitS m, callS d.iface m] (some []) .skip) = d.again m := by
  have hd : declared [waitS m, callS d.iface m] = [] := by
    unfold waitS; cases m.acceptsContext <;> rfl
  rw [hd, inScope_nil]
  show stm _ _ _ (stm _ _ _ _) = _
  rw [stm_wait, stm_call hp]
  rfl

theorem retry_cond (hf : d.Fields) (env : Env) (i : Nat) (hi : env g!"_i" = some (.int i)) (k : Bool → Stm) :
    ev (d.link m) moreE 1 (withBool k) env = if (i : Int) < d.retryCount then (Stm.get g!"err" fun err => k !err.isNil) env else k false env := by
  unfold moreE
  go_simp [Retry.link, hf.ne.1, hf.ne.2]
  rw [Stm.get_apply hi]
  by_cases h : (i : Int) < d.retryCount <;> simp [h]

theorem retry_post (env : Env) (i : Nat) (hi : env g!"_i" = some (.int i)) :
    stm (d.link m) (.inc (.id g!"_i")) (some []) .skip env = .ret (env.set g!"_i" (.int (i + 1 : Nat)), .next) := by
  go_simp []
  rw [Stm.get_apply hi]
  simp [Stm.assign, hi]

/-- Leaving the loop. -/
def loopEnd (env0 : Env) (r : Env × Flow) : Tree (Env × Flow) := match r.2 with
  | .next => .ret (r.1.leave env0 [g!"_i"], .ret)
  | fl => .ret (r.1.leave env0 [g!"_i"], fl)

theorem leave_loop {env env0 : Env} (h : env g!"_i" = env0 g!"_i") (v : Val) : (env.set g!"_i" v).leave env0 [g!"_i"] = env := by
  funext y
  by_cases h1 : y = g!"_i"
  · subst h1; simp [Env.leave, h]
  · simp [Env.leave, Env.set, h1]

/-- A call inside of the loop. -/
theorem retry_call (hi : g!"_i" ∉ m.rnames) (env0 env : Env) (i : Nat) (next loop' : Stm) (he : env g!"_i" = env0 g!"_i")
    (hnext : ∀ e : Env, e g!"_i" = env0 g!"_i" → (next (e.set g!"_i" (.int (i + 1 : Nat)))).bind (loopEnd env0) = loop' e) :
    ((Stm.seq (m.assignCall d.base .skip) (.seq (stm (d.link m) (.inc (.id g!"_i")) (some []) .skip) next)) (env.set g!"_i" (.int i))).bind (loopEnd env0) =
    (Stm.seq (.block [g!"_i"] [.int i] (m.assignCall d.base .skip)) loop') env := by
  have hstuck : ∀ k : Stm, ((Stm.seq .stuck k) (env.set g!"_i" (.int i))).bind (loopEnd env0) = .ret (env, .stuck) := fun k => by
    show loopEnd env0 (_, _) = _
    simp only [loopEnd, leave_loop he]
  have hleave : (env.set g!"_i" (.int i)).leave env [g!"_i"] = env := leave_loop rfl _
  unfold Method.assignCall Stm.block
  rw [Stm.seq_getAll]
  simp only [Stm.seq, Env.setAll, Stm.getAll]
  cases ha : (env.set g!"_i" (.int i)).all m.pnames with
  | none =>
    show loopEnd env0 (_, _) = Tree.ret (_, _)
    simp only [loopEnd, leave_loop he, hleave]
  | some args =>
    refine Tree.vis_congr fun r => ?_
    cases r with
    | error v =>
      show loopEnd env0 (_, _) = Tree.ret (_, _)
      simp only [loopEnd, leave_loop he, hleave]
    | ok vs =>
      simp only [Stm.orPanic_eq, Stm.seq_next, Stm.assignAll]
      cases hr : (env.set g!"_i" (.int i)).all m.rnames with
      | none =>
        show loopEnd env0 (_, _) = Tree.ret (_, _)
        simp only [loopEnd, leave_loop he, hleave]
      | some ws =>
        have hl : m.rnames.length = vs.1.length := by rw [vs.2]; exact List.length_map ..
        simp only [if_pos hl]
        have h1 : ((env.set g!"_i" (.int i)).setAll m.rnames vs.1) g!"_i" = some (.int i) := by
          rw [Env.setAll_not_mem _ hi]; simp [Env.set]
        show ((stm (d.link m) (.inc (.id g!"_i")) (some []) .skip ((env.set g!"_i" (.int i)).setAll m.rnames vs.1)).bind _).bind _ =
          loop' (((env.set g!"_i" (.int i)).setAll m.rnames vs.1).leave env [g!"_i"])
        rw [retry_post _ i h1]
        rw [← hnext _ (by simp [Env.leave, he])]
        show (next _).bind _ = _
        congr 2
        funext y
        by_cases h : y = g!"_i" <;> simp [Env.set, Env.leave, h]

theorem retry_loop (hf : d.Fields) (hi : g!"_i" ∉ m.rnames) (env0 : Env) : ∀ (n i : Nat) (env : Env),
    env g!"_i" = env0 g!"_i" → ((i + n : Nat) : Int) = d.retryCount →
    (loopN (fun k => ev (d.link m) moreE 1 (withBool k)) (stm (d.link m) (.inc (.id g!"_i")) (some []) .skip) (d.again m) (n + 1)
      (env.set g!"_i" (.int i))).bind (loopEnd env0) = d.loop m n i env := by
  intro n
  induction n with
  | zero =>
    intro i env he hn
    rw [loopN, retry_cond hf _ i (by simp [Env.set]), if_neg (by omega), Stm.ite_eq, Retry.loop]
    show loopEnd env0 (_, _) = _
    simp only [loopEnd, leave_loop he]
    rfl
  | succ n ih =>
    intro i env he hn
    rw [loopN, retry_cond hf _ i (by simp [Env.set]), if_pos (by omega), Retry.loop]
    have herr : (env.set g!"_i" (.int i)) g!"err" = env g!"err" := by simp [Env.set]
    have hctx : (env.set g!"_i" (.int i)) g!"ctx" = env g!"ctx" := by simp [Env.set]
    simp only [Stm.get, herr]
    cases hE : env g!"err" with
    | none =>
      show loopEnd env0 (_, _) = Tree.ret (_, _)
      simp only [loopEnd, leave_loop he]
    | some err =>
      simp only [Stm.ite_eq]
      cases hn' : err.isNil with
      | true =>
        show loopEnd env0 (_, _) = Tree.ret (_, _)
        simp only [loopEnd, leave_loop he]
      | false =>
        have hstep := retry_call (d := d) (m := m) hi env0 env i
          (loopN (fun k => ev (d.link m) moreE 1 (withBool k)) (stm (d.link m) (.inc (.id g!"_i")) (some []) .skip) (d.again m) (n + 1))
          (d.loop m n (i + 1)) he (fun e h => ih (i + 1) e h (by omega))
        generalize loopN _ _ _ (n + 1) = next at hstep ⊢
        simp only [Bool.not_false, if_true, Bool.false_eq_true, if_false, Retry.again]
        cases hac : m.acceptsContext with
        | false =>
          simp only [Bool.false_eq_true, if_false]
          exact Tree.vis_congr fun _ => hstep
        | true =>
          simp only [if_true]
          rw [Stm.seq_get]
          simp only [Stm.get, hctx]
          cases hC : env g!"ctx" with
          | none =>
            show loopEnd env0 (_, _) = Tree.ret (_, _)
            simp only [loopEnd, leave_loop he]
          | some ctx =>
            refine Tree.vis_congr fun c => ?_
            cases c with
            | done =>
              show loopEnd env0 (_, _) = Tree.ret (_, _)
              simp only [loopEnd, leave_loop he]
            | other => exact hstep

theorem tmRetry_den (hf : d.Fields) (hp : Plain m.pnames) (hi : g!"_i" ∉ m.rnames) :
    denBody (d.link m) (retryStmts d.iface m) = d.body m := by
  unfold denBody retryStmts Retry.body
  rw [den_cons, stm_call hp]
  congr 1
  rw [den_cons, den_cons, den_cons, den_cons]
  have hloop : 1 ≤ d.retryCount → stm (d.link m) (.loop (.define [.id g!"_i"] [.num g!"0"]) moreE (.inc (.id g!"_i"))
      [waitS m, callS d.iface m]) none .ret = d.loop m d.retryCount.toNat 0 := by
    intro h1
    have hd : hasDefer [waitS m, callS d.iface m] = false := by
      unfold waitS; cases m.acceptsContext <;> rfl
    rw [stm, if_neg (by simp [hd]), retry_again hp]
    funext env
    rw [← retry_loop hf hi env d.retryCount.toNat 0 env rfl (by omega)]
    show ((stm (d.link m) _ _ _ env).bind _).bind _ = _
    have hinit : ∀ k, stm (d.link m) (.define [.id g!"_i"] [.num g!"0"]) (some []) k env = k (env.set g!"_i" (.int 0)) := by
      intro k
      rfl
    rw [hinit, Tree.bind_assoc]
    congr 1
  have hend : den (d.link m) [.ret []] none .skip = .ret := rfl
  rw [hend]
  generalize stm (d.link m) (.loop _ _ _ _) none .ret = K at hloop ⊢
  go_simp [Retry.link, hf.ne.1, hf.ne.2, numeral, hi]
  congr 1
  funext v
  cases hv : v.isNil
  · by_cases h : d.retryCount < 1
    · simp [h, Stm.ite]
    · rw [hloop (by omega)]
      simp [h, Stm.ite]
  · rfl

end Gowrap.Tmpl

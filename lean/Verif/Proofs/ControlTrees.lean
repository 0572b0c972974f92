import Verif.Proofs.Observe
import Verif.Model.TmplControl
/-!
# The control decorators without variables

A call of a generated method is the same tree as one written down directly, provided that the names of
the method do not clash with those of the template.
-/

namespace Gowrap

open Spec Tmpl

variable {m : Method} {loc : Env} {a r : List Val}

@[simp] theorem Tree.bind_ret {α β : Type} (x : α) (f : α → Tree β) : (Tree.ret x).bind f = f x := rfl

@[simp] theorem Tree.bind_vis {α β : Type} (op : Op) (k : op.Resp → Tree α) (f : α → Tree β) :
    (Tree.vis op k).bind f = .vis op fun r => (k r).bind f := rfl

theorem Tree.vis_congr {α : Type} {op : Op} {k k' : op.Resp → Tree α} (h : ∀ r, k r = k' r) :
    Tree.vis op k = .vis op k' := congrArg _ (funext h)

theorem Tree.bind_assoc {α β γ : Type} (t : Tree α) (f : α → Tree β) (g : β → Tree γ) :
    (t.bind f).bind g = t.bind fun x => (f x).bind g := by
  induction t with
  | ret a => rfl
  | vis op k ih => exact Tree.vis_congr ih

/-- A call of an implementation whose results or panic are passed on. -/
def callT (impl : Val) (m : Method) (args : List Val) : Tree Outcome :=
  .vis (.impl impl m.name args m.results.length) fun
    | .ok vs => .ret (.ret vs.1)
    | .error v => .ret (.panic v)

theorem passTo_finish (h : m.Fits a r) (impl : Val) :
    (m.passTo impl (m.env loc a r)).bind m.finish = callT impl m a := by
  rw [Method.passTo_apply h, callT, Tree.bind_vis]
  refine Tree.vis_congr fun x => ?_
  cases x with
  | ok vs => exact Method.finish_ret ⟨h.ok, h.args, vs.2⟩
  | error v => rfl

/-! ## ratelimit -/

/-- A call through the rate limiter. -/
def rateLimitT (G : GoTypes) (base : Val) (m : Method) (args : List Val) : Tree Outcome :=
  if m.acceptsContext && m.returnsError then
    .vis (.doneOrToken (args.headD .nil)) fun
      | .done => .vis (.lib g!"ctx.Err" [args.headD .nil] 1) fun
        | .ok vs => .ret (.ret ((m.zeros G).dropLast ++ [vs.1.headD .nil]))
        | .error v => .ret (.panic v)
      | .other => callT base m args
  else .vis .takeToken fun _ => callT base m args

theorem rateLimit_call (G : GoTypes) (base : Val) {recv : Str × Val} {args : List Val}
    (hok : MethodOk m) (hd : m.WellDeclared recv args) :
    (rateLimitDecorator base).call G m recv args = rateLimitT G base m args := by
  have hf : m.Fits args (m.zeros G) := ⟨hok, hd.2.2, m.zeros_length G⟩
  show m.exec G recv (rateLimit base m) args = _
  rw [Method.exec_apply G hd, rateLimit, rateLimitT]
  split
  · rename_i hc
    simp only [Bool.and_eq_true] at hc
    obtain ⟨c, a', rfl⟩ := Method.args_ctx hf hc.1
    obtain ⟨r', e, hz⟩ := Method.results_err hf hc.2
    rw [Stm.get_apply (Method.env_ctx hf hc.1), Stm.op_apply, Tree.bind_vis]
    refine Tree.vis_congr fun x => ?_
    cases x with
    | other => exact passTo_finish hf base
    | done =>
      show (Stm.get _ _ _).bind _ = _
      rw [Stm.get_apply (Method.env_ctx hf hc.1), Stm.lib1, Stm.op_apply, Tree.bind_vis]
      refine Tree.vis_congr fun x => ?_
      cases x with
      | error v => rfl
      | ok vs =>
        show (Stm.seq _ _ _).bind _ = _
        rw [hz] at hf ⊢
        rw [Stm.seq_assign (Method.env_err hf hc.2), Method.env_set_err hf hc.2]
        simp only [List.dropLast_concat]
        exact Method.finish_ret hf.err
  · exact Tree.vis_congr fun _ => passTo_finish hf base

/-! ## robinpool -/

/-- A call through the round robin pool. -/
def robinPoolT (pool : List Val) (m : Method) (args : List Val) : Tree Outcome :=
  .vis .addCounter fun (c : UInt32) =>
    if UInt32.ofNat pool.length = 0 then .ret (.panic .nil)
    else match pool[(c % UInt32.ofNat pool.length).toNat]? with
      | none => .ret (.panic .nil)
      | some impl => callT impl m args

theorem robinPool_call (G : GoTypes) (pool : List Val) {recv : Str × Val} {args : List Val}
    (h : Callable m recv [g!"atomic", g!"_counter"] args) :
    (robinPoolDecorator pool).call G m recv args = robinPoolT pool m args := by
  have hf := h.fits G
  have f1 := h.fresh (x := g!"atomic") (by simp)
  have f2 := h.fresh (x := g!"_counter") (by simp)
  show m.exec G recv (robinPool pool m) args = _
  rw [Method.exec_apply G h.declared, robinPool, robinPoolT,
    Stm.global_apply (by rw [Method.env_other f1.2, f1.1]), Stm.op_apply, Tree.bind_vis]
  refine Tree.vis_congr fun c => ?_
  rw [Stm.seq_declare (by rw [Method.env_other f2.2, f2.1]), Method.env_set_other hf f2.2]
  split
  · rfl
  · generalize pool[(c % UInt32.ofNat pool.length).toNat]? = x
    cases x with
    | none => rfl
    | some impl => exact passTo_finish hf _

/-! ## syncpool -/

/-- A call through the pool. -/
def syncPoolT (m : Method) (args : List Val) : Tree Outcome :=
  .vis .takeImpl fun impl => .vis (.impl impl m.name args m.results.length) fun
    | .ok vs => .vis (.putImpl impl) fun _ => .ret (.ret vs.1)
    | .error v => .vis (.putImpl impl) fun _ => .ret (.panic v)

theorem syncPool_call (G : GoTypes) {recv : Str × Val} {args : List Val}
    (h : Callable m recv [g!"_impl"] args) :
    syncPoolDecorator.call G m recv args = syncPoolT m args := by
  have hf := h.fits G
  have f1 := h.fresh (x := g!"_impl") (by simp)
  show m.exec G recv (syncPool m) args = _
  rw [Method.exec_apply G h.declared, syncPool, syncPoolT, Stm.op_apply, Tree.bind_vis]
  refine Tree.vis_congr fun impl => ?_
  rw [Stm.seq_declare (by rw [Method.env_other f1.2, f1.1]), Method.env_set_other hf f1.2, Stm.deferring,
    Stm.get_apply (v := impl) (by rw [Method.env_other f1.2, Env.set_same]), Method.passTo_apply hf,
    Tree.bind_vis, Tree.bind_vis]
  refine Tree.vis_congr fun x => ?_
  cases x with
  | ok vs =>
    show (Tree.bind (Stm.get _ _ _) _).bind _ = _
    rw [Stm.get_apply (v := impl) (by show m.env _ _ _ _ = _; rw [Method.env_other f1.2, Env.set_same])]
    show Tree.vis _ _ = _
    refine Tree.vis_congr fun _ => ?_
    exact Method.finish_ret ⟨hf.ok, hf.args, vs.2⟩
  | error v =>
    show (Tree.bind (Stm.get _ _ _) _).bind _ = _
    rw [Stm.get_apply (v := impl) (by show m.env _ _ _ _ = _; rw [Method.env_other f1.2, Env.set_same])]
    rfl

/-! ## circuitbreaker -/

namespace Tmpl.Breaker

/-- Release the lock and return. -/
def unlockT (o : Outcome) : Tree Outcome := .vis .unlock fun _ => .ret o

/-- After a success or an ignored error. -/
def resetT (o : Outcome) : Tree Outcome := .vis (.setErrors 0) fun _ => .vis (.setClosesAt none) fun _ => unlockT o

/-- After an error that counts. -/
def countT (d : Breaker) (o : Outcome) : Tree Outcome :=
  .vis .getErrors fun (n : Nat) => .vis (.setErrors (n + 1)) fun _ => .vis .getErrors fun (n : Nat) =>
    if (n : Int) ≥ d.maxErrors then
      .vis .now fun (t : Int) => .vis (.setClosesAt (some (t + d.openInterval))) fun _ => unlockT o
    else unlockT o

/-- After an error: look for it in the list of ignored errors. -/
def ignoredT (d : Breaker) (err : Val) (o : Outcome) : List Val → Tree Outcome
  | [] => d.countT o
  | e :: es => .vis (.errorsIs err e) fun
    | .ok true => resetT o
    | .ok false => ignoredT d err o es
    | .error v => unlockT (.panic v)

/-- After the implementation returned `vs`. -/
def afterT (d : Breaker) (vs : List Val) : Tree Outcome :=
  .vis .lock fun _ =>
    if (vs.getLast?.getD .nil).isNil then resetT (.ret vs)
    else d.ignoredT (vs.getLast?.getD .nil) (.ret vs) d.ignore

/-- The call of the implementation. -/
def attemptT (d : Breaker) (m : Method) (args : List Val) : Tree Outcome :=
  .vis (.impl d.base m.name args m.results.length) fun
    | .ok vs => d.afterT vs.1
    | .error v => .ret (.panic v)

/-- The circuit is open. -/
def rejectT (G : GoTypes) (d : Breaker) (m : Method) : Tree Outcome :=
  .vis .runlock fun _ => .vis (.lib g!"errors.New" [.str (d.dec ++ g!": circuit is open")] 1) fun
    | .ok vs => .ret (.ret ((m.zeros G).dropLast ++ [vs.1.headD .nil]))
    | .error v => .ret (.panic v)

/-- A call through the circuit breaker. -/
def bodyT (G : GoTypes) (d : Breaker) (m : Method) (args : List Val) : Tree Outcome :=
  .vis .rlock fun _ => .vis .getClosesAt fun (c : Option Int) =>
    if c.isNone then .vis .runlock fun _ => d.attemptT m args
    else .vis .getClosesAt fun (c : Option Int) =>
      match c with
      | none => .ret (.panic .nil)
      | some t => .vis .now fun (now : Int) =>
        if t > now then d.rejectT G m else .vis .runlock fun _ => d.attemptT m args

end Tmpl.Breaker

open Tmpl.Breaker

/-- What a function with a deferred `Unlock` does after its body. -/
def unlockThen (r : Env × Flow) : Tree (Env × Flow) :=
  match r.2 with
  | .stuck => .ret (r.1, .stuck)
  | fl => ((Stm.op .unlock fun _ => Stm.skip) r.1).bind fun r' => match r'.2 with
    | .next | .ret => .ret (r'.1, fl)
    | fl' => .ret (r'.1, fl')

theorem deferring_unlock (rest : Stm) (env : Env) :
    Stm.deferring (.op .unlock fun _ => .skip) rest env = (rest env).bind unlockThen := rfl

theorem breaker_attempt (d : Breaker) (h : m.Fits a r) (hret : m.returnsError = true)
    (ht : ∀ v, m.Fits a v → m.env loc a v g!"time" = none) (he : ∀ v, m.Fits a v → m.env loc a v g!"errors" = none) :
    (d.attempt m (m.env loc a r)).bind m.finish = d.attemptT m a := by
  rw [attempt, Method.assignCall_apply h, attemptT, Tree.bind_vis]
  refine Tree.vis_congr fun x => ?_
  cases x with
  | error v => rfl
  | ok vs =>
    have hf : m.Fits a vs.1 := ⟨h.ok, h.args, vs.2⟩
    obtain ⟨r', e, hr⟩ := Method.results_err hf hret
    show Tree.vis _ _ = Tree.vis _ _
    refine Tree.vis_congr fun _ => ?_
    show Tree.bind (Stm.deferring _ _ _) _ = _
    rw [deferring_unlock, Tree.bind_assoc]
    have henv : m.env loc a vs.1 g!"err" = some e := by
      have := hf
      rw [hr] at this ⊢
      exact Method.env_err this hret
    rw [Stm.get_apply henv]
    have hlast : vs.1.getLast?.getD .nil = e := by rw [hr]; simp
    rw [hlast]
    -- ends of the body
    have hfin : (unlockThen (m.env loc a vs.1, .ret)).bind m.finish = unlockT (.ret vs.1) := by
      show Tree.vis _ _ = _
      exact Tree.vis_congr fun _ => Method.finish_ret hf
    have hreset : (breakerReset (m.env loc a vs.1)).bind (fun x => (unlockThen x).bind m.finish) =
        resetT (.ret vs.1) := by
      show Tree.vis _ _ = _
      refine Tree.vis_congr fun _ => Tree.vis_congr fun _ => ?_
      exact hfin
    have hcount : (d.count (m.env loc a vs.1)).bind (fun x => (unlockThen x).bind m.finish) =
        d.countT (.ret vs.1) := by
      show Tree.vis _ _ = _
      refine Tree.vis_congr fun n => Tree.vis_congr fun _ => Tree.vis_congr fun n' => ?_
      show Tree.bind ((if (n' : Int) ≥ d.maxErrors then _ else _ : Stm) _) _ = _
      split
      · rw [Stm.global_apply (ht _ hf)]
        show Tree.vis _ _ = _
        refine Tree.vis_congr fun t => Tree.vis_congr fun _ => ?_
        exact hfin
      · exact hfin
    have hign : ∀ es, (d.ignored e es (m.env loc a vs.1)).bind (fun x => (unlockThen x).bind m.finish) =
        d.ignoredT e (.ret vs.1) es := by
      intro es
      induction es with
      | nil => exact hcount
      | cons e' es ih =>
        rw [ignored, Stm.global_apply (he _ hf), ignoredT, Stm.op_apply, Tree.bind_vis]
        refine Tree.vis_congr fun x => ?_
        cases x with
        | error v => rfl
        | ok b =>
          cases b with
          | true => exact hreset
          | false => exact ih
    cases hn : e.isNil with
    | true => exact hreset
    | false => exact hign _

theorem breaker_call (G : GoTypes) (d : Breaker) {recv : Str × Val} {args : List Val}
    (h : Callable m recv [g!"time", g!"errors"] args) (hret : m.returnsError = true) :
    d.decorator.call G m recv args = d.bodyT G m args := by
  have hf := h.fits G
  have f1 := h.fresh (x := g!"time") (by simp)
  have f2 := h.fresh (x := g!"errors") (by simp)
  have ht : ∀ v, m.Fits args v → m.env (Method.recvEnv recv) args v g!"time" = none := fun v _ => by
    rw [Method.env_other f1.2, f1.1]
  have he : ∀ v, m.Fits args v → m.env (Method.recvEnv recv) args v g!"errors" = none := fun v _ => by
    rw [Method.env_other f2.2, f2.1]
  have hcall : d.decorator.call G m recv args = m.exec G recv (d.body m) args := by
    simp [Decorator.call, Breaker.decorator, hret]
  rw [hcall, Method.exec_apply G h.declared, Breaker.body, bodyT]
  refine Tree.vis_congr fun _ => Tree.vis_congr fun c => ?_
  show Tree.bind ((if c.isNone then _ else _ : Stm) _) _ = _
  split
  · exact Tree.vis_congr fun _ => breaker_attempt d hf hret ht he
  · refine Tree.vis_congr fun c => ?_
    cases c with
    | none => rfl
    | some t =>
      show Tree.bind (Stm.global _ _ _) _ = _
      rw [Stm.global_apply (ht _ hf)]
      refine Tree.vis_congr fun now => ?_
      show Tree.bind ((if t > now then _ else _ : Stm) _) _ = _
      show _ = (if t > now then _ else _)
      split
      · refine Tree.vis_congr fun _ => ?_
        show Tree.bind (Stm.global _ _ _) _ = _
        rw [Stm.global_apply (he _ hf)]
        refine Tree.vis_congr fun x => ?_
        cases x with
        | error v => rfl
        | ok vs =>
          obtain ⟨r', e, hz⟩ := Method.results_err hf hret
          show Tree.bind (Stm.seq _ _ _) _ = _
          rw [hz] at hf ⊢
          rw [Stm.seq_assign (Method.env_err hf hret), Method.env_set_err hf hret]
          simp only [List.dropLast_concat]
          exact Method.finish_ret hf.err
      · exact Tree.vis_congr fun _ => breaker_attempt d hf hret ht he

/-! ## retry -/

namespace Tmpl.Retry

/-- Stop the ticker and return. -/
def stopT (o : Outcome) : Tree Outcome := .vis .stopTicker fun _ => .ret o

/-- The loop after an attempt with the results `vs`; `n` more attempts are allowed. -/
def loopT (d : Retry) (m : Method) (args : List Val) : Nat → List Val → Tree Outcome
  | 0, vs => stopT (.ret vs)
  | n + 1, vs =>
    if (vs.getLast?.getD .nil).isNil then stopT (.ret vs)
    else if m.acceptsContext then
      .vis (.doneOrTick (args.headD .nil)) fun
        | .done => stopT (.ret vs)
        | .other => .vis (.impl d.base m.name args m.results.length) fun
          | .ok ws => loopT d m args n ws.1
          | .error v => stopT (.panic v)
    else .vis .tick fun _ => .vis (.impl d.base m.name args m.results.length) fun
      | .ok ws => loopT d m args n ws.1
      | .error v => stopT (.panic v)

/-- A call with retries. -/
def bodyT (d : Retry) (m : Method) (args : List Val) : Tree Outcome :=
  .vis (.impl d.base m.name args m.results.length) fun
    | .error v => .ret (.panic v)
    | .ok vs => if (vs.1.getLast?.getD .nil).isNil || d.retryCount < 1 then .ret (.ret vs.1)
      else .vis (.newTicker d.retryInterval) fun
        | .error v => .ret (.panic v)
        | .ok _ => d.loopT m args d.retryCount.toNat vs.1

end Tmpl.Retry

/-- What a function with a deferred `_ticker.Stop()` does after its body. -/
def stopThen (r : Env × Flow) : Tree (Env × Flow) :=
  match r.2 with
  | .stuck => .ret (r.1, .stuck)
  | fl => ((Stm.op .stopTicker fun _ => Stm.skip) r.1).bind fun r' => match r'.2 with
    | .next | .ret => .ret (r'.1, fl)
    | fl' => .ret (r'.1, fl')

theorem deferring_stop (rest : Stm) (env : Env) :
    Stm.deferring (.op .stopTicker fun _ => .skip) rest env = (rest env).bind stopThen := rfl

theorem env_err_last (h : m.Fits a r) (hret : m.returnsError = true) (loc : Env) :
    m.env loc a r g!"err" = some (r.getLast?.getD .nil) := by
  obtain ⟨r', e, rfl⟩ := Method.results_err h hret
  rw [Method.env_err h hret]
  simp

theorem retry_again (d : Retry) {n i : Nat} (h : m.Fits a r) (hi : g!"_i" ∉ m.pnames ++ m.rnames)
    (ih : ∀ (loc : Env) (vs : List Val) (i : Nat), m.Fits a vs →
      (d.loop m n i (m.env loc a vs)).bind (fun x => (stopThen x).bind m.finish) = d.loopT m a n vs) :
    (Stm.seq (.block [g!"_i"] [.int i] (m.assignCall d.base .skip)) (d.loop m n (i + 1)) (m.env loc a r)).bind
      (fun x => (stopThen x).bind m.finish) =
    .vis (.impl d.base m.name a m.results.length) fun
      | .ok ws => d.loopT m a n ws.1
      | .error v => Retry.stopT (.panic v) := by
  have h1 : (m.env loc a r).setAll [g!"_i"] [.int i] = m.env (loc.set g!"_i" (.int i)) a r :=
    Method.env_set_other h hi
  rw [Stm.seq, Stm.block, h1, Method.assignCall_apply h]
  refine Tree.vis_congr fun x => ?_
  cases x with
  | error v => rfl
  | ok ws =>
    have hf : m.Fits a ws.1 := ⟨h.ok, h.args, ws.2⟩
    show Tree.bind (d.loop m n (i + 1) ((m.env (loc.set g!"_i" (.int i)) a ws.1).leave (m.env loc a r) [g!"_i"])) _ = _
    rw [Method.env_leave_other hf h (by simpa using hi)]
    exact ih _ _ _ hf

theorem retry_loop (d : Retry) (hret : m.returnsError = true) (hi : g!"_i" ∉ m.pnames ++ m.rnames) :
    ∀ (n : Nat) (loc : Env) (vs : List Val) (i : Nat), m.Fits a vs →
      (d.loop m n i (m.env loc a vs)).bind (fun x => (stopThen x).bind m.finish) = d.loopT m a n vs := by
  intro n
  induction n with
  | zero =>
    intro loc vs i h
    exact Tree.vis_congr fun _ => Method.finish_ret h
  | succ n ih =>
    intro loc vs i h
    have hfin : (stopThen (m.env loc a vs, .ret)).bind m.finish = Retry.stopT (.ret vs) :=
      Tree.vis_congr fun _ => Method.finish_ret h
    rw [Retry.loop, Stm.get_apply (env_err_last h hret loc), Retry.loopT]
    by_cases hn : (vs.getLast?.getD .nil).isNil = true
    · rw [if_pos hn, if_pos hn]
      exact hfin
    · rw [if_neg hn, if_neg hn]
      by_cases hc : m.acceptsContext = true
      · obtain ⟨c, a', rfl⟩ := Method.args_ctx h hc
        simp only [hc, if_true]
        rw [Stm.get_apply (Method.env_ctx h hc), Stm.op_apply, Tree.bind_vis]
        refine Tree.vis_congr fun x => ?_
        cases x with
        | done => exact hfin
        | other => exact (retry_again (loc := loc) (i := i) d h hi ih).trans (Tree.vis_congr fun x => by cases x <;> rfl)
      · simp only [hc, Bool.false_eq_true, if_false]
        exact Tree.vis_congr fun _ =>
          (retry_again (loc := loc) (i := i) d h hi ih).trans (Tree.vis_congr fun x => by cases x <;> rfl)

theorem retry_call (G : GoTypes) (d : Retry) {recv : Str × Val} {args : List Val}
    (h : Callable m recv [g!"time", g!"_ticker", g!"_i"] args) (hret : m.returnsError = true) :
    d.decorator.call G m recv args = d.bodyT m args := by
  have hf := h.fits G
  have f1 := h.fresh (x := g!"time") (by simp)
  have f2 := h.fresh (x := g!"_ticker") (by simp)
  have f3 := h.fresh (x := g!"_i") (by simp)
  have hcall : d.decorator.call G m recv args = m.exec G recv (d.body m) args := by
    simp [Decorator.call, Retry.decorator, hret]
  rw [hcall, Method.exec_apply G h.declared, Retry.body, Method.assignCall_apply hf, Retry.bodyT]
  refine Tree.vis_congr fun x => ?_
  cases x with
  | error v => rfl
  | ok vs =>
    have hv : m.Fits args vs.1 := ⟨hf.ok, hf.args, vs.2⟩
    show Tree.bind (Stm.get _ _ _) _ = _
    rw [Stm.get_apply (env_err_last hv hret _)]
    show _ = if _ then _ else _
    split
    · exact Method.finish_ret hv
    · rw [if_neg (fun hc => f3.2 (List.mem_append_right _ hc)),
        Stm.global_apply (by rw [Method.env_other f1.2, f1.1])]
      refine Tree.vis_congr fun x => ?_
      cases x with
      | error v => rfl
      | ok u =>
        show Tree.bind (Stm.seq _ _ _) _ = _
        rw [Stm.seq_declare (by rw [Method.env_other f2.2, f2.1]), Method.env_set_other hv f2.2, deferring_stop,
          Tree.bind_assoc]
        exact retry_loop d hret f3.2 _ _ _ _ hv

end Gowrap

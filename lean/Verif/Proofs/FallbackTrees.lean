import Verif.Proofs.ControlTrees
import Verif.Model.TmplFallback
/-!
# The programs of the fallback decorator without variables
-/

namespace Gowrap

open Spec

/-- The last of the results. -/
def lastOf (vs : List Val) : Val := vs.getLast?.getD .nil

theorem lookup_last (x : Str) : ∀ (xs : List Str) (vs : List Val), xs.length = vs.length → x ∉ xs →
    ((xs ++ [x]).zip (vs ++ [v])).lookup x = some v := by
  intro xs
  induction xs with
  | nil =>
    intro vs hl _
    cases vs with
    | nil => simp [List.lookup]
    | cons _ _ => simp at hl
  | cons y ys ih =>
    intro vs hl hx
    simp only [List.mem_cons, not_or] at hx
    cases vs with
    | nil => simp at hl
    | cons w ws =>
      simp only [List.cons_append, List.zip_cons_cons, List.lookup]
      have : (x == y) = false := by simpa using hx.1
      rw [this]
      exact ih ws (by simpa using hl) hx.2

/-- The names which templates/fallback uses. -/
def fallbackIdents : List Str :=
  [g!"_resultStruct", g!"_ch", g!"_next", g!"_errorsList", g!"_ticker", g!"_cancelFunc", g!"_i", g!"_impl", g!"_res",
   g!"time", g!"context", g!"fmt", g!"strings", g!"errors"]

namespace Fallback

theorem errField_last {m : Method} {a vs : List Val} (h : m.Fits a vs) (hret : m.returnsError = true) :
    errField m vs = lastOf vs := by
  obtain ⟨rs, hr⟩ := Method.rnames_err h.ok hret
  obtain ⟨r', e, rfl⟩ := Method.results_err h hret
  have hn := h.nodup_r
  have hl := h.lenr
  rw [hr] at hn hl
  rw [errField, hr, lookup_last _ _ _ (by simpa using hl)]
  · simp [lastOf]
  · intro hx
    exact (List.nodup_append.1 hn).2.2 _ hx _ (by simp) rfl

/-! ## The goroutines -/

/-- Send the results to the method. -/
def sendT (m : Method) (a vs : List Val) : Tree Outcome :=
  if m.acceptsContext then .vis (.sendOrDone (a.headD .nil) vs) fun _ => .ret (.ret [])
  else .vis (.sendOrSkip vs) fun _ => .ret (.ret [])

/-- After the call of the implementation. -/
def wrapT (m : Method) (impl : Val) (a vs : List Val) : Tree Outcome :=
  if m.returnsError && !(lastOf vs).isNil then
    .vis (.lib g!"fmt.Errorf" [.str g!"%T: %v", impl, lastOf vs] 1) fun
      | .ok es => sendT m a (vs.dropLast ++ [es.1.headD .nil])
      | .error v => .ret (.panic v)
  else sendT m a vs

/-- A goroutine that calls an implementation. -/
def childT (m : Method) (impl : Val) (a : List Val) : Tree Outcome :=
  .vis (.impl impl m.name a m.results.length) fun
    | .ok vs => wrapT m impl a vs.1
    | .error v => .ret (.panic v)

theorem send_eq {m : Method} {loc : Env} {a r : List Val} (h : m.Fits a r) (outer : Env) :
    (send m (m.env loc a r)).bind (fun x => goEnd (x.1.leave outer m.rnames, x.2)) = sendT m a r := by
  rw [send, Stm.getAll_apply (Method.env_all_results h), sendT]
  by_cases hc : m.acceptsContext = true
  · obtain ⟨c, a', rfl⟩ := Method.args_ctx h hc
    rw [if_pos hc, if_pos hc, Stm.get_apply (Method.env_ctx h hc)]
    rfl
  · rw [if_neg hc, if_neg hc]
    rfl

theorem child_eq {m : Method} {loc : Env} {a r : List Val} {impl : Val} (h : m.Fits a r)
    (hi : loc g!"_impl" = some impl) (hf : loc g!"fmt" = none) (ni : g!"_impl" ∉ m.pnames ++ m.rnames)
    (nf : g!"fmt" ∉ m.pnames ++ m.rnames) :
    (child m (m.env loc a r)).bind goEnd = childT m impl a := by
  have henv : ∀ r, m.env loc a r g!"_impl" = some impl := fun r => by rw [Method.env_other ni, hi]
  rw [child, Stm.get_apply (henv r), Stm.getAll_apply (Method.env_all_params h), childT]
  refine Tree.vis_congr fun x => ?_
  cases x with
  | error v => rfl
  | ok vs =>
    have hv : m.Fits a vs.1 := ⟨h.ok, h.args, vs.2⟩
    show Tree.bind (Stm.block _ _ _ _) _ = _
    rw [Stm.block, Method.env_setAll_results h vs.2, Tree.bind_assoc]
    show Tree.bind (Stm.seq _ _ _) (fun x => goEnd (x.1.leave (m.env loc a r) m.rnames, x.2)) = wrapT m impl a vs.1
    rw [wrapT]
    by_cases hret : m.returnsError = true
    · obtain ⟨r', e, hr⟩ := Method.results_err hv hret
      have hlast : lastOf vs.1 = e := by rw [lastOf, hr]; simp
      rw [Stm.seq, wrapErr, if_pos hret, Stm.get_apply (env_err_last hv hret loc)]
      rw [show vs.1.getLast?.getD .nil = e from hlast, hlast, hret, Bool.true_and]
      cases hn : e.isNil with
      | true => exact send_eq hv _
      | false =>
        show Tree.bind (Tree.bind (Stm.global _ _ _) _) _ = _
        rw [Stm.global_apply (by rw [Method.env_other nf, hf]), Stm.get_apply (henv _)]
        refine Tree.vis_congr fun x => ?_
        cases x with
        | error v => rfl
        | ok es =>
          show Tree.bind (Tree.bind (Stm.assign _ _ _) _) _ = sendT m a (vs.1.dropLast ++ _)
          rw [hr] at hv ⊢
          rw [Stm.assign_apply (Method.env_err hv hret), Method.env_set_err hv hret]
          simp only [List.dropLast_concat]
          exact send_eq hv.err _
    · have hret : m.returnsError = false := by simpa using hret
      rw [hret, Bool.false_and, if_neg Bool.false_ne_true, Stm.seq, wrapErr, hret, if_neg Bool.false_ne_true]
      exact send_eq hv _

/-! ## The method -/

/-- The deferred `_ticker.Stop()`. -/
def stopT (o : Outcome) : Tree Outcome := .vis .stopTicker fun _ => .ret o

/-- The deferred `_cancelFunc()`. -/
def cancelT (f : Val) (o : Outcome) : Tree Outcome :=
  .vis (.lib g!"cancel" [f] 0) fun
    | .ok _ => stopT o
    | .error v => stopT (.panic v)

/-- Return the error `e`. -/
def failWith (G : GoTypes) (m : Method) (e : Val) : Outcome := .ret ((m.zeros G).dropLast ++ [e])

/-- `errors.New(s)`. -/
def newT (G : GoTypes) (m : Method) (f s : Val) : Tree Outcome :=
  .vis (.lib g!"errors.New" [s] 1) fun
    | .ok es => cancelT f (failWith G m (es.1.headD .nil))
    | .error v => cancelT f (.panic v)

/-- All implementations have failed. -/
def joinT (G : GoTypes) (m : Method) (f : Val) (errs : List Val) : Tree Outcome :=
  .vis (.lib g!"strings.Join" [.slice errs, .str g!";"] 1) fun
    | .ok ss => newT G m f (ss.1.headD .nil)
    | .error v => cancelT f (.panic v)

/-- `fmt.Errorf("%w: %s", e, s)`. -/
def errorfT (G : GoTypes) (m : Method) (f e s : Val) : Tree Outcome :=
  .vis (.lib g!"fmt.Errorf" [.str g!"%w: %s", e, s] 1) fun
    | .ok es => cancelT f (failWith G m (es.1.headD .nil))
    | .error v => cancelT f (.panic v)

/-- The context is done: collect the errors so far. -/
def joinDoneT (G : GoTypes) (m : Method) (f : Val) (errs : List Val) (e : Val) : Tree Outcome :=
  .vis (.lib g!"strings.Join" [.slice errs, .str g!";"] 1) fun
    | .ok ss => errorfT G m f e (ss.1.headD .nil)
    | .error v => cancelT f (.panic v)

/-- The context is done. -/
def doneT (G : GoTypes) (m : Method) (f ctx : Val) (errs : List Val) : Tree Outcome :=
  if m.returnsError then
    .vis (.lib g!"ctx.Err" [ctx] 1) fun
      | .ok es => joinDoneT G m f errs (es.1.headD .nil)
      | .error v => cancelT f (.panic v)
  else cancelT f (.ret (m.zeros G))

/-- Return the results of an implementation. -/
def returnT (m : Method) (f : Val) (vs : List Val) : Tree Outcome :=
  if vs.length = m.results.length then cancelT f (.ret vs) else .ret .stuck

/-- The text of an error was added to `errs`: stop or go on with `k`. -/
def nextT (G : GoTypes) (d : Fallback) (m : Method) (f : Val) (errs : List Val) (k : Tree Outcome) : Tree Outcome :=
  if errs.length = d.impls.length then joinT G m f errs else k

/-- The loop. -/
def loopT (G : GoTypes) (d : Fallback) (m : Method) (f ctx : Val) : Nat → List Val → Tree Outcome
  | 0, _ => .ret .stuck
  | fuel + 1, errs => .vis (.recvOrDone ctx) fun
    | some vs =>
      if vs.length = m.results.length then
        if m.returnsError then
          if (errField m vs).isNil then returnT m f vs
          else .vis .sendNext fun _ => .vis (.lib g!"err.Error" [errField m vs] 1) fun
            | .ok ss => d.nextT G m f (errs ++ [ss.1.headD .nil]) (loopT G d m f ctx fuel (errs ++ [ss.1.headD .nil]))
            | .error v => cancelT f (.panic v)
        else returnT m f vs
      else .ret .stuck
    | none => doneT G m f ctx errs

theorem env_set_twice (loc : Env) (x : Str) (u v : Val) : (loc.set x u).set x v = loc.set x v := by
  funext y
  simp only [Env.set]
  split <;> rfl

/-- `return _res.…` before deferred functions. -/
theorem returnRes_eq {m : Method} {loc : Env} {a r vs : List Val} (h : m.Fits a r) :
    returnRes m vs (m.env loc a r) =
      if vs.length = m.results.length then .ret (m.env loc a vs, .ret) else .ret (m.env loc a r, .stuck) := by
  rw [returnRes, Stm.seq, Stm.assignAll, Method.env_all_results h]
  have hl : m.rnames.length = m.results.length := by simp [Method.rnames]
  by_cases hv : vs.length = m.results.length
  · rw [if_pos hv]
    simp only [hl, hv, if_true]
    rw [Method.env_setAll_results h hv]
    rfl
  · rw [if_neg hv]
    have : ¬ m.rnames.length = vs.length := by omega
    simp only [this, if_false]
    rfl

theorem loop_eq (G : GoTypes) (d : Fallback) {m : Method} {c : Val} {a' zs : List Val} (f : Val)
    (K : Env × Flow → Tree Outcome) (hz : zs = m.zeros G)
    (h : m.Fits (c :: a') zs) (hc : m.acceptsContext = true)
    (n1 : g!"_errorsList" ∉ m.pnames ++ m.rnames) (n2 : g!"errors" ∉ m.pnames ++ m.rnames)
    (n3 : g!"strings" ∉ m.pnames ++ m.rnames) (n4 : g!"fmt" ∉ m.pnames ++ m.rnames)
    (kret : ∀ loc vs, m.Fits (c :: a') vs → K (m.env loc (c :: a') vs, .ret) = cancelT f (.ret vs))
    (kpanic : ∀ env v, K (env, .panic v) = cancelT f (.panic v)) (kstuck : ∀ env, K (env, .stuck) = .ret .stuck) :
    ∀ (fuel : Nat) (loc : Env) (errs : List Val), (m.returnsError = true → loc g!"_errorsList" = some (.slice errs)) →
      loc g!"errors" = none → loc g!"strings" = none → loc g!"fmt" = none →
      (d.loop m fuel (m.env loc (c :: a') zs)).bind K = d.loopT G m f c fuel errs := by
  intro fuel
  induction fuel with
  | zero => intro loc errs _ _ _ _; exact kstuck _
  | succ fuel ih =>
    intro loc errs hl h2 h3 h4
    have retErr : ∀ (loc : Env) (e : Val), m.returnsError = true →
        (Stm.seq (.assign g!"err" e) .ret (m.env loc (c :: a') zs)).bind K = cancelT f (failWith G m e) := by
      intro loc e hret
      obtain ⟨r', e', hr⟩ := Method.results_err h hret
      have h' := h
      rw [hr] at h' ⊢
      rw [Stm.seq_assign (Method.env_err h' hret), Method.env_set_err h' hret]
      show K _ = _
      rw [kret _ _ h'.err, failWith, ← hz, hr]
      simp
    have hreturn : ∀ (vs : List Val), (returnRes m vs (m.env loc (c :: a') zs)).bind K = returnT m f vs := by
      intro vs
      rw [returnRes_eq h, returnT]
      split
      · rename_i hv
        exact kret _ _ ⟨h.ok, h.args, hv⟩
      · exact kstuck _
    rw [loop, Stm.get_apply (Method.env_ctx h hc), loopT]
    refine Tree.vis_congr fun x => ?_
    cases x with
    | none =>
      show Tree.bind (cancelled m _) K = doneT G m f c errs
      rw [cancelled, doneT]
      by_cases hret : m.returnsError = true
      · rw [if_pos hret, if_pos hret, Stm.global_apply (by rw [Method.env_other n4, h4]),
          Stm.get_apply (Method.env_ctx h hc)]
        refine Tree.vis_congr fun x => ?_
        cases x with
        | error v => exact kpanic _ _
        | ok es =>
          show Tree.bind (Stm.global _ _ _) K = joinDoneT G m f errs _
          rw [Stm.global_apply (by rw [Method.env_other n3, h3]),
            Stm.get_apply (v := .slice errs) (by rw [Method.env_other n1, hl hret])]
          refine Tree.vis_congr fun x => ?_
          cases x with
          | error v => exact kpanic _ _
          | ok ss =>
            refine Tree.vis_congr fun x => ?_
            cases x with
            | error v => exact kpanic _ _
            | ok es => exact retErr _ _ hret
      · rw [if_neg hret, if_neg hret]
        rw [← hz]
        exact kret _ _ h
    | some vs =>
      show Tree.bind (typed m _ vs _) K = (if vs.length = m.results.length then
        (if m.returnsError = true then (if (errField m vs).isNil = true then _ else _) else _) else _)
      rw [typed]
      by_cases hlv : vs.length = m.results.length
      case neg =>
        rw [if_neg hlv, if_neg hlv]
        exact kstuck _
      rw [if_pos hlv, if_pos hlv]
      show Tree.bind ((if m.returnsError = true then (if (errField m vs).isNil = true then returnRes m vs else _ : Stm)
        else returnRes m vs : Stm) _) K = (if m.returnsError = true then (if (errField m vs).isNil = true then _ else _) else _)
      by_cases hret : m.returnsError = true
      · rw [if_pos hret, if_pos hret]
        by_cases hn : (errField m vs).isNil = true
        · rw [if_pos hn, if_pos hn]
          exact hreturn vs
        · rw [if_neg hn, if_neg hn]
          have hel : m.env loc (c :: a') zs g!"_errorsList" = some (.slice errs) := by
            rw [Method.env_other n1, hl hret]
          refine Tree.vis_congr fun _ => ?_
          show Tree.bind (Stm.get _ _ _) K = _
          rw [Stm.get_apply hel]
          refine Tree.vis_congr fun x => ?_
          cases x with
          | error v => exact kpanic _ _
          | ok ss =>
            show Tree.bind (Stm.seq _ _ _) K = nextT G d m f _ _
            rw [Stm.seq_assign hel, Method.env_set_other h n1,
              Stm.get_apply (v := .slice (errs ++ [ss.1.headD .nil])) (by rw [Method.env_other n1, Env.set_same]; rfl)]
            have o2 : (loc.set g!"_errorsList" (appendTo (.slice errs) (ss.1.headD .nil))) g!"errors" = none := by
              rw [Env.set_other _ _ (by decide), h2]
            have o3 : (loc.set g!"_errorsList" (appendTo (.slice errs) (ss.1.headD .nil))) g!"strings" = none := by
              rw [Env.set_other _ _ (by decide), h3]
            have o4 : (loc.set g!"_errorsList" (appendTo (.slice errs) (ss.1.headD .nil))) g!"fmt" = none := by
              rw [Env.set_other _ _ (by decide), h4]
            rw [nextT]
            show Tree.bind ((if (errs ++ [ss.1.headD .nil]).length = d.impls.length then allFailed else d.loop m fuel : Stm) _) K = _
            by_cases hlen : (errs ++ [ss.1.headD .nil]).length = d.impls.length
            · rw [if_pos hlen, if_pos hlen, allFailed, Stm.global_apply (by rw [Method.env_other n2, o2]),
                Stm.global_apply (by rw [Method.env_other n3, o3]),
                Stm.get_apply (v := .slice (errs ++ [ss.1.headD .nil])) (by rw [Method.env_other n1, Env.set_same]; rfl)]
              refine Tree.vis_congr fun x => ?_
              cases x with
              | error v => exact kpanic _ _
              | ok ss =>
                refine Tree.vis_congr fun x => ?_
                cases x with
                | error v => exact kpanic _ _
                | ok es => exact retErr _ _ hret
            · rw [if_neg hlen, if_neg hlen]
              exact ih _ _ (fun _ => by rw [Env.set_same]; rfl) o2 o3 o4
      · rw [if_neg hret, if_neg hret]
        exact hreturn vs

/-- The variables which the goroutines see: the parameters `a`. -/
structure Scope (m : Method) where
  loc : Env
  a : List Val
  r : List Val
  fits : m.Fits a r
  fmt : loc g!"fmt" = none

/-- The variables of a scope. -/
def Scope.env {m : Method} (g : Scope m) : Env := m.env g.loc g.a g.r

/-- The local variables of the method before `go`. -/
def localVars (d : Fallback) (m : Method) (recv : Str × Val) : Env :=
  let l := (((Method.recvEnv recv).set g!"_resultStruct" .nil).set g!"_ch" (.int 0)).set g!"_next" (.int d.impls.length)
  let l := if m.returnsError then l.set g!"_errorsList" (.slice []) else l
  l.set g!"_ticker" (.obj 2)

theorem localVars_none {d : Fallback} {m : Method} {recv : Str × Val} {args : List Val} (h : Callable m recv fallbackIdents args)
    {x : Str} (hx : x ∈ [g!"_cancelFunc", g!"_i", g!"_impl", g!"_res", g!"time", g!"context", g!"fmt", g!"strings", g!"errors"]) :
    localVars d m recv x = none := by
  have hi : x ∈ fallbackIdents := by
    simp only [fallbackIdents, List.mem_cons, List.not_mem_nil, or_false] at hx ⊢
    simp only [hx, or_true]
  have hf := (h.fresh hi).1
  have hne : x ≠ g!"_resultStruct" ∧ x ≠ g!"_ch" ∧ x ≠ g!"_next" ∧ x ≠ g!"_errorsList" ∧ x ≠ g!"_ticker" := by
    simp only [List.mem_cons, List.not_mem_nil, or_false] at hx
    rcases hx with rfl | rfl | rfl | rfl | rfl | rfl | rfl | rfl | rfl <;> decide
  unfold localVars
  rw [Env.set_other _ _ hne.2.2.2.2]
  by_cases hr : m.returnsError = true
  · rw [if_pos hr, Env.set_other _ _ hne.2.2.2.1, Env.set_other _ _ hne.2.2.1, Env.set_other _ _ hne.2.1,
      Env.set_other _ _ hne.1, hf]
  · rw [if_neg hr, Env.set_other _ _ hne.2.2.1, Env.set_other _ _ hne.2.1, Env.set_other _ _ hne.1, hf]

theorem localVars_errors {d : Fallback} {m : Method} {recv : Str × Val} (hret : m.returnsError = true) :
    localVars d m recv g!"_errorsList" = some (.slice []) := by
  unfold localVars
  rw [Env.set_other _ _ (by decide), if_pos hret, Env.set_same]

/-- What a call sees before and after starting the launcher. -/
structure Setup (G : GoTypes) (m : Method) (recv : Str × Val) (args : List Val) : Prop where
  call : Callable m recv fallbackIdents args
  shape : m.returnsError = true → m.acceptsContext = true

variable {G : GoTypes} {m : Method} {recv : Str × Val} {args : List Val}

/-- The scope of the goroutines of a method with a context. -/
def scopeCtx (d : Fallback) (h : Setup G m recv args) (hc : m.acceptsContext = true) (c f : Val) : Scope m where
  loc := (localVars d m recv).set g!"_cancelFunc" f
  a := c :: args.tail
  r := m.zeros G
  fits := by
    have hf := h.call.fits G
    obtain ⟨c0, a', rfl⟩ := Method.args_ctx hf hc
    exact hf.ctx
  fmt := by rw [Env.set_other _ _ (by decide), localVars_none h.call (by simp)]

/-- The scope of the goroutines of a method without a context. -/
def scopePlain (d : Fallback) (h : Setup G m recv args) : Scope m where
  loc := localVars d m recv
  a := args
  r := m.zeros G
  fits := h.call.fits G
  fmt := localVars_none h.call (by simp)

/-- A method with a context after `context.WithCancel`. -/
def launchCtxT (d : Fallback) (h : Setup G m recv args) (hc : m.acceptsContext = true) (c f : Val) : Tree Outcome :=
  .vis (.go .launcher (scopeCtx d h hc c f).env) fun _ => d.loopT G m f c (d.impls.length + 1) []

/-- A method without a context after it has started the launcher. -/
def recvT (m : Method) : Tree Outcome :=
  .vis .recv fun (vs : List Val) => if vs.length = m.results.length then stopT (.ret vs) else .ret .stuck

/-- A method without a context. -/
def launchPlainT (d : Fallback) (h : Setup G m recv args) : Tree Outcome :=
  .vis (.go .launcher (scopePlain d h).env) fun _ => recvT m

/-- After `time.NewTicker`. -/
def workT (d : Fallback) (h : Setup G m recv args) : Tree Outcome :=
  if hc : m.acceptsContext = true then
    .vis (.lib g!"context.WithCancel" [args.headD .nil] 2) fun
      | .ok vs => launchCtxT d h hc (vs.1.headD .nil) (vs.1.tail.headD .nil)
      | .error v => stopT (.panic v)
  else launchPlainT d h

/-- A call. -/
def bodyT (d : Fallback) (h : Setup G m recv args) : Tree Outcome :=
  .vis (.newTicker d.interval) fun
    | .ok _ => workT d h
    | .error v => .ret (.panic v)

/-- What a function with a deferred `_cancelFunc()` does after its body. -/
def cancelThen (f : Val) (r : Env × Flow) : Tree (Env × Flow) :=
  match r.2 with
  | .stuck => .ret (r.1, .stuck)
  | fl => ((Stm.lib0 g!"cancel" [f]) r.1).bind fun r' => match r'.2 with
    | .next | .ret => .ret (r'.1, fl)
    | fl' => .ret (r'.1, fl')

theorem deferring_cancel (f : Val) (rest : Stm) (env : Env) :
    Stm.deferring (.lib0 g!"cancel" [f]) rest env = (rest env).bind (cancelThen f) := rfl

theorem start_seq (k : Stm) (env : Env) : Stm.seq start k env = .vis (.go .launcher env) fun _ => k env := rfl

theorem call_eq (d : Fallback) (h : Setup G m recv args) : d.decorator.call G m recv args = bodyT d h := by
  have hf := h.call.fits G
  have fresh : ∀ {x : Str}, x ∈ fallbackIdents → Method.recvEnv recv x = none ∧ x ∉ m.pnames ++ m.rnames :=
    fun hx => h.call.fresh hx
  have f1 := fresh (x := g!"_resultStruct") (by simp [fallbackIdents])
  have f2 := fresh (x := g!"_ch") (by simp [fallbackIdents])
  have f3 := fresh (x := g!"_next") (by simp [fallbackIdents])
  have f4 := fresh (x := g!"_errorsList") (by simp [fallbackIdents])
  have f5 := fresh (x := g!"_ticker") (by simp [fallbackIdents])
  have f6 := fresh (x := g!"_cancelFunc") (by simp [fallbackIdents])
  have f7 := fresh (x := g!"time") (by simp [fallbackIdents])
  have f8 := fresh (x := g!"_res") (by simp [fallbackIdents])
  have f9 := fresh (x := g!"context") (by simp [fallbackIdents])
  have f10 := fresh (x := g!"fmt") (by simp [fallbackIdents])
  have f11 := fresh (x := g!"strings") (by simp [fallbackIdents])
  have f12 := fresh (x := g!"errors") (by simp [fallbackIdents])
  have hshape : (m.returnsError && !m.acceptsContext) = false := by
    cases hr : m.returnsError with
    | false => rfl
    | true => rw [h.shape hr]; rfl
  show m.exec G recv (d.body m) args = _
  rw [Method.exec_apply G h.call.declared, body, hshape, if_neg Bool.false_ne_true, bodyT,
    Stm.global_apply (by rw [Method.env_other f8.2, f8.1]), Stm.seq_declare (by rw [Method.env_other f1.2, f1.1]), Method.env_set_other hf f1.2,
    Stm.seq_declare (by rw [Method.env_other f2.2, Env.set_other _ _ (by decide), f2.1]), Method.env_set_other hf f2.2,
    Stm.seq_declare (by rw [Method.env_other f3.2, Env.set_other _ _ (by decide), Env.set_other _ _ (by decide), f3.1]),
    Method.env_set_other hf f3.2]
  -- the list of errors
  generalize hl3 : (((Method.recvEnv recv).set g!"_resultStruct" .nil).set g!"_ch" (.int 0)).set g!"_next" (.int d.impls.length) = l3
  have hl3n : ∀ x, x ≠ g!"_resultStruct" → x ≠ g!"_ch" → x ≠ g!"_next" → x ∈ fallbackIdents → l3 x = none := by
    intro x h1 h2 h3 hx
    rw [← hl3, Env.set_other _ _ h3, Env.set_other _ _ h2, Env.set_other _ _ h1, (fresh hx).1]
  have hlist : ∀ k : Stm, Stm.seq (if m.returnsError then .declare g!"_errorsList" (.slice []) else .skip) k
      (m.env l3 args (m.zeros G)) = k (m.env (if m.returnsError then l3.set g!"_errorsList" (.slice []) else l3) args (m.zeros G)) := by
    intro k
    by_cases hr : m.returnsError = true
    · rw [if_pos hr, if_pos hr, Stm.seq_declare (by
        rw [Method.env_other f4.2, hl3n _ (by decide) (by decide) (by decide) (by simp [fallbackIdents])]),
        Method.env_set_other hf f4.2]
    · rw [if_neg hr, if_neg hr]
      rfl
  rw [hlist]
  have hloc : (if m.returnsError then l3.set g!"_errorsList" (.slice []) else l3).set g!"_ticker" (.obj 2) = localVars d m recv := by
    rw [← hl3]; rfl
  have hno : ∀ x, x ∈ fallbackIdents → x ≠ g!"_resultStruct" → x ≠ g!"_ch" → x ≠ g!"_next" → x ≠ g!"_errorsList" →
      (if m.returnsError then l3.set g!"_errorsList" (.slice []) else l3) x = none := by
    intro x hx h1 h2 h3 h4
    split
    · rw [Env.set_other _ _ h4, hl3n x h1 h2 h3 hx]
    · exact hl3n x h1 h2 h3 hx
  rw [Stm.global_apply (by rw [Method.env_other f7.2]; exact hno _ (by simp [fallbackIdents]) (by decide) (by decide) (by decide) (by decide))]
  refine Tree.vis_congr fun x => ?_
  cases x with
  | error v => rfl
  | ok u =>
    show Tree.bind (Stm.seq _ _ _) _ = workT d h
    rw [Stm.seq_declare (by
        rw [Method.env_other f5.2]
        exact hno _ (by simp [fallbackIdents]) (by decide) (by decide) (by decide) (by decide)),
      Method.env_set_other hf f5.2, hloc, deferring_stop, Tree.bind_assoc, work, workT]
    by_cases hc : m.acceptsContext = true
    · rw [if_pos hc, dif_pos hc, Stm.global_apply (by rw [Method.env_other f9.2, localVars_none h.call (by simp)])]
      obtain ⟨c0, a', rfl⟩ := Method.args_ctx hf hc
      rw [Stm.get_apply (Method.env_ctx hf hc)]
      refine Tree.vis_congr fun x => ?_
      cases x with
      | error v => rfl
      | ok vs =>
        show Tree.bind (Stm.seq _ _ _) _ = launchCtxT d h hc _ _
        generalize vs.1.headD .nil = c
        generalize vs.1.tail.headD .nil = f
        have hf' : m.Fits (c :: a') (m.zeros G) := hf.ctx
        rw [Stm.seq_declare (by rw [Method.env_other f6.2, localVars_none h.call (by simp)]), Method.env_set_other hf f6.2,
          Stm.seq_assign (Method.env_ctx hf hc), Method.env_set_ctx hf hc,
          Stm.get_apply (v := f) (by rw [Method.env_other f6.2, Env.set_same]), deferring_cancel, Tree.bind_assoc, start_seq,
          launchCtxT]
        refine Tree.vis_congr fun _ => ?_
        refine loop_eq G d f _ rfl hf' hc f4.2 f12.2 f11.2 f10.2 ?_ ?_ ?_ _ _ _ ?_ ?_ ?_ ?_
        · intro loc vs hvs
          refine Tree.vis_congr fun x => ?_
          cases x with
          | ok u => exact Tree.vis_congr fun _ => Method.finish_ret hvs
          | error v => rfl
        · intro env v
          refine Tree.vis_congr fun x => ?_
          cases x <;> rfl
        · intro env; rfl
        · intro hret
          rw [Env.set_other _ _ (by decide), localVars_errors hret]
        · rw [Env.set_other _ _ (by decide), localVars_none h.call (by simp)]
        · rw [Env.set_other _ _ (by decide), localVars_none h.call (by simp)]
        · rw [Env.set_other _ _ (by decide), localVars_none h.call (by simp)]
    · rw [if_neg hc, dif_neg hc, start_seq, launchPlainT]
      refine Tree.vis_congr fun _ => Tree.vis_congr fun vs => ?_
      show Tree.bind (typed m _ vs _) _ = (if vs.length = m.results.length then stopT (.ret vs) else .ret .stuck)
      rw [typed]
      by_cases hv : vs.length = m.results.length
      case neg =>
        rw [if_neg hv, if_neg hv]
        rfl
      rw [if_pos hv, if_pos hv]
      by_cases hh : m.hasResults = true
      · rw [if_pos hh, Stm.seq_declare (by rw [Method.env_other f8.2, localVars_none h.call (by simp)]),
          Method.env_set_other hf f8.2, returnRes_eq hf, if_pos hv]
        exact Tree.vis_congr fun _ => Method.finish_ret ⟨hf.ok, hf.args, hv⟩
      · rw [if_neg hh, returnRes_eq hf, if_pos hv]
        exact Tree.vis_congr fun _ => Method.finish_ret ⟨hf.ok, hf.args, hv⟩

end Fallback

end Gowrap

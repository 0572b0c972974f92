import Verif.Proofs.GoDen
import Verif.Proofs.TmFallback
/-!
# The meaning of the code generated by templates/fallback
-/

namespace Gowrap.Stm

open Gowrap

theorem block_op (xs : List Str) (vs : List Val) (o : Op) (k : o.Resp → Stm) :
    block xs vs (op o k) = op o fun r => block xs vs (k r) := rfl

theorem block_lib1 (x : Str) (v : Val) (fn : Str) (args : List Val) (k : Val → Stm) :
    block [x] [v] (lib1 fn args k) = lib1 fn args fun w => block [x] [v] (k w) := by
  funext env
  refine Tree.vis_congr fun r => ?_
  cases r with
  | ok a => rfl
  | error e =>
    show Tree.ret ((env.set x v).leave env [x], _) = _
    rw [Env.leave_set]
    rfl

theorem block_ret (x : Str) (v : Val) : block [x] [v] ret = ret := by
  funext env
  show Tree.ret ((env.set x v).leave env [x], _) = _
  rw [Env.leave_set]
  rfl

theorem block_skip (x : Str) (v : Val) : block [x] [v] skip = skip := by
  funext env
  show Tree.ret ((env.set x v).leave env [x], _) = _
  rw [Env.leave_set]
  rfl

theorem block_stuck (x : Str) (v : Val) : block [x] [v] stuck = stuck := by
  funext env
  show Tree.ret ((env.set x v).leave env [x], _) = _
  rw [Env.leave_set]
  rfl

theorem block_global (x y : Str) (h : y ≠ x) (v : Val) (k : Stm) :
    block [x] [v] (global y k) = global y (block [x] [v] k) := by
  funext env
  simp only [block, Env.setAll, global, Env.set, if_neg h]
  cases env y with
  | some w =>
    show Tree.ret ((env.set x v).leave env [x], Flow.stuck) = _
    rw [Env.leave_set]
    rfl
  | none => rfl

theorem set_comm {x y : Str} (h : y ≠ x) (env : Env) (v w : Val) : (env.set x v).set y w = (env.set y w).set x v := by
  funext z
  simp only [Env.set]
  by_cases h1 : z = y
  · subst h1; simp [h]
  · simp [h1]

theorem setAll_set_comm {x : Str} : ∀ (ys : List Str) (ws : List Val) (env : Env) (v : Val), x ∉ ys →
    (env.set x v).setAll ys ws = (env.setAll ys ws).set x v
  | [], _, _, _, _ => rfl
  | _ :: _, [], _, _, _ => rfl
  | y :: ys, w :: ws, env, v, h => by
    simp only [List.mem_cons, not_or] at h
    show ((env.set x v).set y w).setAll ys ws = ((env.set y w).setAll ys ws).set x v
    rw [set_comm (Ne.symm h.1), setAll_set_comm ys ws _ v h.2]

theorem all_set {x : Str} : ∀ (ys : List Str) (env : Env) (v : Val), x ∉ ys → (env.set x v).all ys = env.all ys
  | [], _, _, _ => rfl
  | y :: ys, env, v, h => by
    simp only [List.mem_cons, not_or] at h
    have hy : (env.set x v) y = env y := Env.set_other _ _ (Ne.symm h.1)
    simp only [Env.all, all_set ys env v h.2, hy]

theorem block_assign (x y : Str) (h : y ≠ x) (v w : Val) (k : Stm) :
    block [x] [v] (seq (assign y w) k) = seq (assign y w) (block [x] [v] k) := by
  funext env
  have hy : (env.set x v) y = env y := Env.set_other _ _ h
  simp only [block, Env.setAll, seq, assign, hy]
  cases env y with
  | none =>
    show Tree.ret ((env.set x v).leave env [x], Flow.stuck) = _
    rw [Env.leave_set]
    rfl
  | some u =>
    show (k ((env.set x v).set y w)).bind _ = (k ((env.set y w).set x v)).bind _
    rw [set_comm h]
    congr 1
    funext r
    congr 2
    funext z
    simp only [Env.leave, List.mem_singleton]
    by_cases hz : z = x
    · subst hz; simp [Env.set, Ne.symm h]
    · simp [hz]

theorem block_assignAll (x : Str) (ys : List Str) (h : x ∉ ys) (v : Val) (ws : List Val) (k : Stm) :
    block [x] [v] (seq (assignAll ys ws) k) = seq (assignAll ys ws) (block [x] [v] k) := by
  funext env
  have hstuck : Tree.ret ((env.set x v).leave env [x], Flow.stuck) = Tree.ret (env, Flow.stuck) := by rw [Env.leave_set]
  simp only [block, Env.setAll, seq, assignAll, all_set ys env v h]
  cases env.all ys with
  | none => exact hstuck
  | some u =>
    by_cases hl : ys.length = ws.length
    · simp only [if_pos hl]
      show (k ((env.set x v).setAll ys ws)).bind _ = (k ((env.setAll ys ws).set x v)).bind _
      rw [setAll_set_comm ys ws env v h]
      congr 1
      funext r
      congr 2
      funext z
      simp only [Env.leave, List.mem_singleton]
      by_cases hz : z = x
      · subst hz
        simp only [if_pos]
        exact (Env.setAll_not_mem _ h).symm
      · simp [hz]
    · simp only [if_neg hl]
      exact hstuck

end Gowrap.Stm

namespace Gowrap.Tmpl

open Gowrap Go

set_option maxRecDepth 100000

/-- `len(_d.implementations)` -/
def countE : Go.Expr := callE (.id g!"len") [fieldE g!"implementations"]

/-- The call of the implementation. -/
def implStmts (m : Method) : List Stmt :=
  bif m.hasResults then [.define [.many (idExprs m.results)] [callExpr (.id g!"_impl") m]] else [.expr (callExpr (.id g!"_impl") m)]

def wrapStmts (m : Method) : List Stmt :=
  bif m.returnsError then
    [.cond (notNilE (.id g!"err")) [.assign [.id g!"err"] [callE (dotE g!"fmt" g!"Errorf") [.str g!"%T: %v", .id g!"_impl", .id g!"err"]]]]
  else []

/-- `<-ctx.Done()` -/
def doneS : Stmt := .expr (.un g!"<-" (callE (dotE g!"ctx" g!"Done") []))

/-- `_ch <- _resultStruct{results}` -/
def sendChS (m : Method) : Stmt := .send (.id g!"_ch") (.lit (.name g!"_resultStruct") [.many (idExprs m.results)] false)

def sendStmt (m : Method) : Stmt :=
  bif m.acceptsContext then .select [.case (sendChS m) [], .case doneS []] else .select [.case (sendChS m) [], .default []]

/-- The function literal that calls an implementation. -/
def childStmts (m : Method) : List Stmt := implStmts m ++ (wrapStmts m ++ [sendStmt m])

def launchBody (type : Str) (m : Method) : List Stmt :=
  [.go (.call (.fn [.mk [g!"_impl"] (.toks (lexed type))] .none (childStmts m)) [.index (fieldE g!"implementations") (.id g!"_i")] false),
    .cond (.bin g!"<" (.id g!"_i") (.bin g!"-" countE (.num g!"1")))
      [.select [.case (.expr (.un g!"<-" (.id g!"_next"))) [], .case (.expr (.un g!"<-" (dotE g!"_ticker" g!"C"))) []]]]

/-- The function literal that starts the others. -/
def launcherStmts (type : Str) (m : Method) : List Stmt :=
  [.loop (.define [.id g!"_i"] [.num g!"0"]) (.bin g!"<" (.id g!"_i") countE) (.inc (.id g!"_i")) (launchBody type m)]

/-- The fields of `_res`. -/
def resExprs (ps : List Param) : List Go.Expr := ps.map fun r => .sel (.id g!"_res") r.name

/-- `strings.Join(_errorsList, ";")` -/
def joinE : Go.Expr := callE (dotE g!"strings" g!"Join") [.id g!"_errorsList", .str g!";"]

/-- What follows the reception of results. -/
def gotStmts (m : Method) : List Stmt :=
  bif m.returnsError then
    [.cond (.bin g!"==" (.sel (.id g!"_res") g!"err") (.id g!"nil")) [.ret [.many (resExprs m.results)]],
      .send (.id g!"_next") (.lit (.struct []) [] false),
      .assign [.id g!"_errorsList"] [callE (.id g!"append") [.id g!"_errorsList", callE (.sel (dotE g!"_res" g!"err") g!"Error") []]],
      .cond (.bin g!"==" (callE (.id g!"len") [.id g!"_errorsList"]) countE)
        [.assign [.id g!"err"] [callE (dotE g!"errors" g!"New") [joinE]], .ret []]]
  else bif m.hasResults then [.ret [.many (resExprs m.results)]] else [.ret []]

/-- `_res := <-_ch` -/
def recvS (m : Method) : Stmt :=
  bif m.hasResults then .define [.id g!"_res"] [.un g!"<-" (.id g!"_ch")] else .expr (.un g!"<-" (.id g!"_ch"))

def doneStmts (m : Method) : List Stmt :=
  bif m.returnsError then
    [.assign [.id g!"err"] [callE (dotE g!"fmt" g!"Errorf") [.str g!"%w: %s", callE (dotE g!"ctx" g!"Err") [], joinE]], .ret []]
  else [.ret []]

/-- After the launcher was started. -/
def awaitStmts (m : Method) : List Stmt :=
  bif m.acceptsContext then [.forever [.select [.case (recvS m) (gotStmts m), .case doneS (doneStmts m)]]]
  else bif m.returnsError then
    [recvS m, .cond (.bin g!"==" (.sel (.id g!"_res") g!"err") (.id g!"nil")) [.ret [.many (resExprs m.results)]],
      .assign [.id g!"_errorsList"] [callE (.id g!"append") [.id g!"_errorsList", callE (.sel (dotE g!"_res" g!"err") g!"Error") []]]]
  else recvS m :: gotStmts m

/-- The fields of the results. -/
def resultsTy (ps : List Param) : Ty := bif ps.isEmpty then .struct [] else resultsStructType ps

def fallbackStmts (type : Str) (m : Method) : List Stmt :=
  [.type g!"_resultStruct" (.part (resultsTy m.results)),
    .varInit g!"_ch" (callE (.id g!"make") [.type (.chan (.name g!"_resultStruct")), .num g!"0"]),
    .varInit g!"_next" (callE (.id g!"make") [.type (.chan (.struct [])), countE])] ++
  (bif m.returnsError then [.var g!"_errorsList" (.slice (.name g!"string"))] else []) ++
  [.varInit g!"_ticker" (callE (dotE g!"time" g!"NewTicker") [fieldE g!"interval"]),
    .defer (callE (dotE g!"_ticker" g!"Stop") [])] ++
  (bif m.acceptsContext then
    [.define [.id g!"ctx", .id g!"_cancelFunc"] [callE (dotE g!"context" g!"WithCancel") [.id g!"ctx"]],
      .defer (callE (.id g!"_cancelFunc") [])] else []) ++
  (.go (.call (.fn [] .none (launcherStmts type m)) [] false) :: awaitStmts m)

theorem tmFallback_method (u : Uni) (d : Inputs) (m : Method) (h : m.returnsError = true → m.results ≠ [])
    (hc : m.acceptsContext = true → m.params ≠ []) :
    tmFallback.methodDecls u d m =
      [.method g!"_d" (.name (tmFallback.names u d).dec) m.name (paramDecls m.params) (paramDecls m.results)
        (fallbackStmts d.type m)] := by
  obtain ⟨doc, cm, nm, ps, rs, re, ac⟩ := m
  cases ps with
  | nil =>
    cases ac
    · cases rs with
      | nil =>
        cases re
        · krfl
        · exact absurd rfl (h rfl)
      | cons r rs => cases re <;> krfl
    · exact absurd rfl (hc rfl)
  | cons p ps =>
    cases rs with
    | nil =>
      cases re
      · cases ac <;> krfl
      · exact absurd rfl (h rfl)
    | cons r rs => cases re <;> cases ac <;> krfl

variable {d : Fallback} {m : Method}

/-! ## The goroutine that calls an implementation -/

theorem den_wrap (b : Block) (k : Stm) : den (d.link m) (wrapStmts m) b k = .seq (Fallback.wrapErr m) k := by
  unfold wrapStmts Fallback.wrapErr
  cases m.returnsError
  · rfl
  · go_simp [Fallback.link]
    funext env
    cases he : env g!"err" <;> env_simp [he]

theorem stm_send (hr : Plain m.rnames) (b : Block) (k : Stm) :
    stm (d.link m) (sendStmt m) b k = .seq (Fallback.send m) k := by
  unfold sendStmt Fallback.send sendChS doneS
  cases m.acceptsContext
  · go_simp [Fallback.link, clauseComms, Clause.comm, Expr.recvFrom, Expr.chan, sentVals, bindRecv, clauses, evs_results hr, structVal, fieldKeys]
    congr 1
    funext vs
    congr 1
    funext c
    cases c <;> rfl
  · go_simp [Fallback.link, clauseComms, Clause.comm, Expr.recvFrom, Expr.chan, sentVals, bindRecv, clauses, evs_results hr, structVal, fieldKeys]
    congr 1
    funext vs
    congr 1
    funext v
    congr 1
    funext c
    cases c <;> rfl

theorem leftNames_ids (ps : List Param) : leftNames [.many (idExprs ps)] = ps.map (·.name) := by
  have hl : ∀ ps : List Param, nameList (ps.map fun p => .id p.name) = ps.map (·.name) := by
    intro ps
    induction ps with
    | nil => rfl
    | cons p ps ih => exact congrArg _ ih
  simp [leftNames, idExprs, hl]

theorem bindAll_setAll : ∀ (xs : List Str) (vs : List Val) (env : Env), g!"_" ∉ xs → bindAll env xs vs = env.setAll xs vs
  | [], _, _, _ => rfl
  | _ :: _, [], _, _ => rfl
  | x :: xs, v :: vs, env, h => by
    simp only [List.mem_cons, not_or] at h
    show bindAll (if x = g!"_" then env else env.set x v) xs vs = (env.set x v).setAll xs vs
    rw [if_neg (Ne.symm h.1), bindAll_setAll xs vs _ h.2]

theorem define_results {xs : List Str} {vs : List Val} {b : List Str} {env : Env} (hne : xs ≠ []) (hl : xs.length = vs.length)
    (h0 : g!"_" ∉ xs) (hb : ∀ x ∈ xs, x ∉ b) (k : Stm) :
    Stm.seq (defineAll (some b) xs vs) k env = k (env.setAll xs vs) := by
  have hall : xs.all (fun x => decide (x = g!"_") || Block.has (some b) env x) = false := by
    cases xs with
    | nil => exact absurd rfl hne
    | cons x xs =>
      have h1 : x ≠ g!"_" := fun h => h0 (h ▸ .head _)
      have h2 : x ∉ b := hb x (.head _)
      simp [h1, h2, Block.has]
  simp only [Stm.seq, defineAll, hall, if_pos hl, bindAll_setAll xs vs env h0]
  rfl

theorem goEnd_leave (xs : List Str) (env : Env) (t : Tree (Env × Flow)) :
    (t.bind fun r => Tree.ret (r.1.leave env xs, r.2)).bind Fallback.goEnd = t.bind Fallback.goEnd := by
  rw [Tree.bind_assoc]
  rfl

theorem goEnd_block (xs : List Str) (vs : List Val) (s : Stm) (env : Env) :
    (Stm.block xs vs s env).bind Fallback.goEnd = (s (env.setAll xs vs)).bind Fallback.goEnd := goEnd_leave xs env _

theorem den_append_block (L : Link) : ∀ (xs ys : List Stmt) (b : Block) (k : Stm),
    den L (xs ++ ys) b k = den L xs b (den L ys (b.map (· ++ declared xs)) k)
  | [], ys, b, k => by
    cases b with
    | none => rfl
    | some l =>
      show den L ys (some l) k = den L ys (some (l ++ [])) k
      rw [List.append_nil]
  | x :: xs, ys, b, k => by
    show stm L x b (den L (xs ++ ys) _ k) = stm L x b (den L xs _ _)
    rw [den_append_block L xs ys _ k]
    cases b with
    | none => rfl
    | some l =>
      show stm L x _ (den L xs _ (den L ys (some (l ++ x.declares ++ declared xs)) k)) =
        stm L x _ (den L xs _ (den L ys (some (l ++ (x.declares ++ declared xs))) k))
      rw [List.append_assoc]

/-- What a goroutine that calls an implementation does. -/
theorem fallback_child (hp : Plain m.pnames) (hr : Plain m.rnames) (h0 : g!"_" ∉ m.rnames) (hi : g!"_impl" ∉ m.rnames) (env : Env) :
    (denGo (d.link m) [g!"_impl"] (childStmts m) env).bind Fallback.goEnd = d.goTree m env .impl := by
  have himpl : (d.link m).impl (.id g!"_impl") = true := by go_simp [Fallback.link]
  have hread : ∀ k, ev (d.link m) (.id g!"_impl") 1 k = .get g!"_impl" fun v => k [v] := fun k => by go_simp []
  show _ = (Fallback.child m env).bind Fallback.goEnd
  unfold denGo childStmts Fallback.child
  rw [den_append_block, den_append_block, den_wrap]
  show (den _ _ _ (Stm.seq _ (stm _ (sendStmt m) _ Stm.skip)) env).bind _ = _
  rw [stm_send hr, Stm.seq_next]
  generalize Stm.seq (Fallback.wrapErr m) (Fallback.send m) = rest
  have hn : m.rnames.length = m.results.length := List.length_map ..
  unfold implStmts
  cases hh : m.hasResults
  · have hz : m.results = [] := by
      unfold Method.hasResults at hh
      cases h : m.results with
      | nil => rfl
      | cons a r => rw [h] at hh; simp at hh
    have hz' : m.rnames = [] := by simp [Method.rnames, hz]
    show (ev (d.link m) (callExpr (.id g!"_impl") m) 0 _ env).bind _ = _
    rw [ev_call himpl hread hp, hz, hz']
    simp only [Stm.get, Stm.getAll]
    cases env g!"_impl" with
    | none => rfl
    | some v =>
      show ((match env.all m.pnames with | some vs => _ | none => _ : Tree _).bind _ : Tree _) = (match env.all m.pnames with | some vs => _ | none => _ : Tree _).bind _
      cases env.all m.pnames with
      | none => rfl
      | some args =>
        refine Tree.vis_congr fun r => ?_
        cases r with
        | error v => rfl
        | ok vs =>
          show (rest env).bind _ = (Stm.block [] vs.1 rest env).bind _
          rw [goEnd_block]
          rfl
  · have hc : leftCount [.many (idExprs m.results)] = m.results.length := by simp [leftCount, idExprs]
    show (ev (d.link m) (callExpr (.id g!"_impl") m) (leftCount [.many (idExprs m.results)]) _ env).bind _ = _
    rw [ev_call himpl hread hp, hc]
    simp only [leftNames_ids]
    simp only [Stm.get, Stm.getAll]
    cases env g!"_impl" with
    | none => rfl
    | some v =>
      show ((match env.all m.pnames with | some vs => _ | none => _ : Tree _).bind _ : Tree _) = (match env.all m.pnames with | some vs => _ | none => _ : Tree _).bind _
      cases env.all m.pnames with
      | none => rfl
      | some args =>
        refine Tree.vis_congr fun r => ?_
        cases r with
        | error v => rfl
        | ok vs =>
          show (Stm.seq (defineAll (some [g!"_impl"]) m.rnames vs.1) rest env).bind _ = (Stm.block m.rnames vs.1 rest env).bind _
          rw [goEnd_block, define_results (fun h => by rw [h] at hn; simp [Method.hasResults, ← hn] at hh) (by rw [hn, vs.2]) h0
            (fun x hx hb => by simp at hb; exact hi (hb ▸ hx))]

/-! ## The goroutine that starts the others -/

/-- One iteration. -/
theorem launch_body (type : Str) (i : Nat) (impl : Val) (rest : List Val) (hd : d.impls.drop i = impl :: rest) (env : Env) (k : Stm) :
    Stm.seq (inScope (declared (launchBody type m)) (den (d.link m) (launchBody type m) (some []) .skip)) k (env.set g!"_i" (.int i)) =
    .vis (.go .impl ((env.set g!"_i" (.int i)).set g!"_impl" impl)) fun _ =>
      if rest = [] then k (env.set g!"_i" (.int i)) else .vis .nextOrTick fun _ => k (env.set g!"_i" (.int i)) := by
  have hi : d.impls[i]? = some impl := by
    rw [← List.head?_drop, hd]; rfl
  have hlen : d.impls.length = i + (rest.length + 1) := by
    have := congrArg List.length hd
    rw [List.length_drop] at this
    simp only [List.length_cons] at this
    omega
  have hget : (env.set g!"_i" (.int i)) g!"_i" = some (.int i) := Env.set_same ..
  have hn : ((i : Int) < (d.impls.length : Int) - 1) ↔ rest ≠ [] := by
    cases rest with
    | nil => simp at hlen ⊢; omega
    | cons a r => simp at hlen ⊢; omega
  unfold launchBody
  generalize childStmts m = cs
  generalize env.set g!"_i" (.int i) = e at hget ⊢
  go_simp [Fallback.link, countE, groupNames, lenFn, Fallback.lenOf, numeral, clauseComms, Clause.comm, Expr.recvFrom, Expr.chan, sentVals, bindRecv, clauses]
  rw [Stm.get_apply hget]
  simp only [Int.toNat_natCast, hi, Int.natCast_nonneg, if_true]
  refine Tree.vis_congr fun _ => ?_
  simp only [Stm.get_apply hget]
  by_cases hr : rest = []
  · rw [if_pos hr]
    simp only [decide_eq_false (fun h => hn.1 h hr)]
    rfl
  · rw [if_neg hr]
    simp only [decide_eq_true (hn.2 hr)]
    refine Tree.vis_congr fun c => ?_
    cases c <;> rfl

theorem launch_cond (env : Env) (i : Nat) (hi : env g!"_i" = some (.int i)) (k : Bool → Stm) :
    ev (d.link m) (.bin g!"<" (.id g!"_i") countE) 1 (withBool k) env = k (decide (i < d.impls.length)) env := by
  unfold countE
  go_simp [Fallback.link, lenFn, Fallback.lenOf]
  rw [Stm.get_apply hi]
  simp

theorem launch_post (env : Env) (i : Nat) (hi : env g!"_i" = some (.int i)) :
    stm (d.link m) (.inc (.id g!"_i")) (some []) .skip env = .ret (env.set g!"_i" (.int (i + 1 : Nat)), .next) := by
  go_simp []
  rw [Stm.get_apply hi]
  simp [Stm.assign, hi]

theorem launch_loop (type : Str) (K : Env × Flow → Tree Outcome) (hK : ∀ e, K (e, .next) = .ret (.ret [])) :
    ∀ (rest : List Val) (i : Nat) (env : Env), d.impls.drop i = rest →
    (loopN (fun k => ev (d.link m) (.bin g!"<" (.id g!"_i") countE) 1 (withBool k)) (stm (d.link m) (.inc (.id g!"_i")) (some []) .skip)
      (inScope (declared (launchBody type m)) (den (d.link m) (launchBody type m) (some []) .skip)) (rest.length + 1)
      (env.set g!"_i" (.int i))).bind K = (Fallback.launch i rest env).bind Fallback.goEnd
  | [], i, env, hd => by
    have hl : d.impls.length ≤ i := List.drop_eq_nil_iff.1 hd
    rw [loopN, launch_cond _ i (Env.set_same ..), decide_eq_false (by omega)]
    exact hK _
  | impl :: rest, i, env, hd => by
    have hlen : i < d.impls.length := by
      have := congrArg List.length hd
      rw [List.length_drop] at this
      simp only [List.length_cons] at this
      omega
    have hd' : d.impls.drop (i + 1) = rest := by
      rw [← List.drop_drop, hd]; rfl
    have ih := launch_loop type K hK rest (i + 1) env hd'
    have hnext : ∀ k : Stm, Stm.seq (stm (d.link m) (.inc (.id g!"_i")) (some []) .skip) k (env.set g!"_i" (.int i)) =
        k (env.set g!"_i" (.int (i + 1 : Nat))) := by
      intro k
      show Tree.bind _ _ = _
      rw [launch_post _ i (Env.set_same ..)]
      show k _ = _
      congr 1
      funext y
      simp only [Env.set]
      split <;> rfl
    rw [loopN, launch_cond _ i (Env.set_same ..), decide_eq_true hlen, Stm.ite_eq, if_pos rfl, launch_body type i impl rest hd]
    cases rest with
    | nil =>
      refine Tree.vis_congr fun _ => ?_
      rw [if_pos rfl, hnext]
      exact ih
    | cons r rest =>
      refine Tree.vis_congr fun _ => ?_
      rw [if_neg (by simp), hnext]
      exact Tree.vis_congr fun _ => ih

/-- What the goroutine that starts the others does. -/
theorem fallback_launcher (type : Str) (env : Env) :
    (denGo (d.link m) [] (launcherStmts type m) env).bind Fallback.goEnd = d.goTree m env .launcher := by
  show _ = (Fallback.launch 0 d.impls env).bind Fallback.goEnd
  have hdef : hasDefer (launchBody type m) = false := rfl
  unfold denGo launcherStmts
  show (stm _ _ _ Stm.skip env).bind _ = _
  rw [stm, if_neg (by simp [hdef]), Stm.seq_next, inScope, goEnd_leave]
  have hinit : ∀ k, stm (d.link m) (.define [.id g!"_i"] [.num g!"0"]) (some []) k env = k (env.set g!"_i" (.int 0)) := fun k => rfl
  rw [hinit]
  exact launch_loop type Fallback.goEnd (fun _ => rfl) d.impls 0 env rfl

/-! ## The method -/

/-- The fields of a struct. -/
def structOf (m : Method) (vs : List Val) (rs : List Param) : List Val :=
  rs.map fun r => ((m.rnames.zip vs).lookup r.name).getD .nil

theorem structOf_all : ∀ (xs : List Param) (vs : List Val), (xs.map (·.name)).Nodup → vs.length = xs.length →
    (xs.map fun r => (((xs.map (·.name)).zip vs).lookup r.name).getD .nil) = vs
  | [], [], _, _ => rfl
  | x :: xs, v :: vs, hn, hl => by
    simp only [List.map_cons, List.nodup_cons] at hn
    have ih := structOf_all xs vs hn.2 (by simpa using hl)
    simp only [List.map_cons, List.zip_cons_cons, List.lookup, beq_self_eq_true, Option.getD_some]
    congr 1
    rw [← ih]
    refine List.map_congr_left fun r hr => ?_
    have : (r.name == x.name) = false := by
      simp only [beq_eq_false_iff_ne]
      intro h
      exact hn.1 (h ▸ List.mem_map_of_mem hr)
    rw [this, ih]

theorem structOf_results (hn : m.rnames.Nodup) {vs : List Val} (hl : vs.length = m.results.length) :
    structOf m vs m.results = vs := structOf_all m.results vs hn hl

theorem read_res (x : Str) : (d.link m).read [g!"_res", x] = some fun k => .get g!"_res" fun
    | .slice vs => k (((m.rnames.zip vs).lookup x).getD .nil)
    | _ => .stuck := rfl

theorem ev_res (x : Str) (n : Nat) (k : List Val → Stm) : ev (d.link m) (.sel (.id g!"_res") x) n k = .get g!"_res" fun
    | .slice vs => k [((m.rnames.zip vs).lookup x).getD .nil]
    | _ => .stuck := by
  simp only [ev, Expr.path, Expr.pathTo, read_res]
  rfl

theorem block_fields (vs : List Val) : ∀ (rs : List Param) (k : List Val → Stm),
    Stm.block [g!"_res"] [.slice vs] (evs (d.link m) (resExprs rs) k) =
      .block [g!"_res"] [.slice vs] (k (structOf m vs rs))
  | [], _ => rfl
  | r :: rs, k => by
    show Stm.block _ _ (ev (d.link m) (.sel (.id g!"_res") r.name) 1 fun us => evs (d.link m) (resExprs rs) fun ws => k (us ++ ws)) = _
    rw [ev_res, Stm.block_get_same]
    exact block_fields vs rs _

theorem declare_fields (vs : List Val) : ∀ (rs : List Param) (k : List Val → Stm),
    Stm.seq (.declare g!"_res" (.slice vs)) (evs (d.link m) (resExprs rs) k) =
      .seq (.declare g!"_res" (.slice vs)) (k (structOf m vs rs))
  | [], _ => rfl
  | r :: rs, k => by
    show Stm.seq _ (ev (d.link m) (.sel (.id g!"_res") r.name) 1 fun us => evs (d.link m) (resExprs rs) fun ws => k (us ++ ws)) = _
    rw [ev_res, Stm.declare_get]
    exact declare_fields vs rs _

/-- `return _res.a, …` -/
theorem stm_return (b : Block) (k : Stm) : stm (d.link m) (.ret [.many (resExprs m.results)]) b k =
    evs (d.link m) (resExprs m.results) fun vs => .seq (.assignAll m.rnames vs) .ret := rfl

theorem block_return (hn : m.rnames.Nodup) (hx : g!"_res" ∉ m.rnames) {vs : List Val} (hl : vs.length = m.results.length) (b : Block) (k : Stm) :
    Stm.block [g!"_res"] [.slice vs] (stm (d.link m) (.ret [.many (resExprs m.results)]) b k) = Fallback.returnRes m vs := by
  rw [stm_return, block_fields, structOf_results hn hl, Stm.block_assignAll _ _ hx, Stm.block_ret]
  rfl

/-- After the reception of `vs`. -/
def gotStm (d : Fallback) (m : Method) (again : Stm) (vs : List Val) : Stm :=
  if m.returnsError then
    if (Fallback.errField m vs).isNil then Fallback.returnRes m vs
    else .op .sendNext fun _ => .get g!"_errorsList" fun l => .lib1 g!"err.Error" [Fallback.errField m vs] fun s =>
      .seq (.assign g!"_errorsList" (Fallback.appendTo l s))
        (.get g!"_errorsList" fun l => if Fallback.lenOf l = d.impls.length then Fallback.allFailed else again)
  else Fallback.returnRes m vs

theorem return_seq (b : Block) (k a : Stm) : Stm.seq (stm (d.link m) (.ret [.many (resExprs m.results)]) b k) a =
    stm (d.link m) (.ret [.many (resExprs m.results)]) b k := by
  have h : ∀ (rs : List Param) (f : List Val → Stm), Stm.seq (evs (d.link m) (resExprs rs) f) a =
      evs (d.link m) (resExprs rs) fun vs => Stm.seq (f vs) a := by
    intro rs
    induction rs with
    | nil => exact fun _ => rfl
    | cons r rs ih =>
      intro f
      show Stm.seq (ev (d.link m) (.sel (.id g!"_res") r.name) 1 fun us => evs (d.link m) (resExprs rs) fun ws => f (us ++ ws)) a =
        ev (d.link m) (.sel (.id g!"_res") r.name) 1 fun us => evs (d.link m) (resExprs rs) fun ws => Stm.seq (f (us ++ ws)) a
      rw [ev_res, ev_res, Stm.seq_get]
      congr 1
      funext v
      cases v with
      | slice vs => exact ih _
      | _ => rfl
  rw [stm_return, h]
  simp only [Stm.seq_assoc, Stm.ret_seq]

/-- `if _res.err == nil { return … }` -/
theorem block_success (hn : m.rnames.Nodup) (hx : g!"_res" ∉ m.rnames) {vs : List Val} (hl : vs.length = m.results.length) (b : Block) (k : Stm) :
    Stm.block [g!"_res"] [.slice vs]
      (stm (d.link m) (.cond (.bin g!"==" (.sel (.id g!"_res") g!"err") (.id g!"nil")) [.ret [.many (resExprs m.results)]]) b k) =
      if (Fallback.errField m vs).isNil then Fallback.returnRes m vs else .block [g!"_res"] [.slice vs] k := by
  have hret := block_return (d := d) hn hx hl (some []) Stm.skip
  have hseq := fun a => return_seq (d := d) (m := m) (some []) Stm.skip a
  have hd : hasDefer [.ret [.many (resExprs m.results)]] = false ∧ declared [.ret [.many (resExprs m.results)]] = [] := ⟨rfl, rfl⟩
  rw [stm, hd.1, hd.2, if_neg Bool.false_ne_true, inScope_nil, ev]
  rw [if_neg (by decide), if_neg (by decide), ev_res, Stm.block_get_same]
  show Stm.block _ _ (Stm.seq (Stm.ite (Fallback.errField m vs).isNil (stm _ _ _ _) Stm.skip) k) = _
  cases (Fallback.errField m vs).isNil
  · rfl
  · show Stm.block _ _ (Stm.seq (stm _ _ _ Stm.skip) k) = Fallback.returnRes m vs
    rw [hseq, hret]

/-- What follows a failure. -/
def failStmts : List Stmt :=
  [.send (.id g!"_next") (.lit (.struct []) [] false),
    .assign [.id g!"_errorsList"] [callE (.id g!"append") [.id g!"_errorsList", callE (.sel (dotE g!"_res" g!"err") g!"Error") []]],
    .cond (.bin g!"==" (callE (.id g!"len") [.id g!"_errorsList"]) countE)
      [.assign [.id g!"err"] [callE (dotE g!"errors" g!"New") [joinE]], .ret []]]

theorem block_fail (vs : List Val) (b : Block) :
    Stm.block [g!"_res"] [.slice vs] (den (d.link m) failStmts b .skip) =
      .op .sendNext fun _ => .get g!"_errorsList" fun l => .lib1 g!"err.Error" [Fallback.errField m vs] fun s =>
        .seq (.assign g!"_errorsList" (Fallback.appendTo l s))
          (.get g!"_errorsList" fun l => if Fallback.lenOf l = d.impls.length then Fallback.allFailed else .skip) := by
  unfold failStmts joinE countE
  go_simp [Fallback.link, lenFn, appendFn, Stm.block_op, Stm.block_lib1, Stm.block_assign, Stm.block_global, Stm.block_ret, Stm.block_skip]
  have h : ∀ v : Val, (if Fallback.lenOf v = d.impls.length then Fallback.allFailed else .skip : Stm) =
      .ite (decide ((Fallback.lenOf v : Int) = (d.impls.length : Int))) Fallback.allFailed .skip := by
    intro v
    by_cases h : Fallback.lenOf v = d.impls.length
    · simp [h, Stm.ite]
    · have h2 : ¬ ((Fallback.lenOf v : Int) = (d.impls.length : Int)) := by omega
      simp [h, h2, Stm.ite]
  simp only [h]
  rfl

theorem got_block (hn : m.rnames.Nodup) (hx : g!"_res" ∉ m.rnames) (hh : m.hasResults = true) {vs : List Val}
    (hl : vs.length = m.results.length) (b : Block) :
    Stm.block [g!"_res"] [.slice vs] (den (d.link m) (gotStmts m) b .skip) = gotStm d m .skip vs := by
  unfold gotStmts gotStm
  cases hre : m.returnsError
  · rw [hh]
    exact block_return hn hx hl b _
  · simp only [cond_true, if_true]
    show Stm.block _ _ (stm (d.link m) (.cond _ _) b (den (d.link m) failStmts _ .skip)) = _
    rw [block_success hn hx hl, block_fail]

theorem den_done (b : Block) : den (d.link m) (doneStmts m) b .skip = Fallback.cancelled m := by
  unfold doneStmts Fallback.cancelled joinE
  cases m.returnsError
  · rfl
  · go_simp [Fallback.link]

theorem gotStm_seq (vs : List Val) (k : Stm) : Stm.seq (gotStm d m .skip vs) k = gotStm d m k vs := by
  have hr : ∀ vs, Stm.seq (Fallback.returnRes m vs) k = Fallback.returnRes m vs := fun vs => by
    rw [Fallback.returnRes, Stm.seq_assoc, Stm.ret_seq]
  have ha : Stm.seq Fallback.allFailed k = Fallback.allFailed := by
    simp only [Fallback.allFailed, Stm.seq_global, Stm.seq_get, Stm.seq_lib1, Stm.seq_assoc, Stm.ret_seq]
  unfold gotStm
  cases m.returnsError
  · exact hr vs
  · simp only [if_true]
    cases (Fallback.errField m vs).isNil
    · simp only [Bool.false_eq_true, if_false, Stm.seq_op, Stm.seq_get, Stm.seq_lib1, Stm.seq_assoc]
      congr 1
      funext _
      congr 1
      funext l
      congr 1
      funext s
      congr 2
      funext l
      by_cases h : Fallback.lenOf l = d.impls.length
      · rw [if_pos h, if_pos h, ha]
      · rw [if_neg h, if_neg h, Stm.skip_seq]
    · exact hr vs

theorem cancelled_seq (k : Stm) : Stm.seq (Fallback.cancelled m) k = Fallback.cancelled m := by
  unfold Fallback.cancelled
  cases m.returnsError
  · rfl
  · simp only [if_true, Stm.seq_global, Stm.seq_get, Stm.seq_lib1, Stm.seq_assoc, Stm.ret_seq]

theorem returnRes_nil (h : m.rnames = []) : Fallback.returnRes m [] = .ret := by
  unfold Fallback.returnRes
  rw [h]
  rfl

/-- The select statement of the loop. -/
def awaitS (m : Method) : Stmt := .select [.case (recvS m) (gotStmts m), .case doneS (doneStmts m)]

theorem results_nil (hh : m.hasResults = false) : m.results = [] := by
  unfold Method.hasResults at hh
  cases h : m.results with
  | nil => rfl
  | cons a r => rw [h] at hh; simp at hh

theorem stm_await (hn : m.rnames.Nodup) (hx : g!"_res" ∉ m.rnames) (hre : m.returnsError = true → m.hasResults = true) (b : Block) (k : Stm) :
    stm (d.link m) (awaitS m) b k =
    .get g!"ctx" fun ctx => .op (.recvOrDone ctx) fun r => match r with
      | some vs => Fallback.typed m (gotStm d m k) vs
      | none => Fallback.cancelled m := by
  have hcomms : clauseComms [.case (recvS m) (gotStmts m), .case doneS (doneStmts m)] =
      some [.recv [g!"_ch"], .recv [g!"ctx", g!"Done"]] := by
    unfold recvS
    cases m.hasResults <;> rfl
  have hsel : (d.link m).select [.recv [g!"_ch"], .recv [g!"ctx", g!"Done"]] = some fun _ k => .get g!"ctx" fun ctx => .op (.recvOrDone ctx) fun
          | some vs => Fallback.typed m (fun vs => k 0 (.slice vs)) vs
          | none => k 1 .nil := rfl
  have hsent : ∀ k, sentVals (d.link m) [.case (recvS m) (gotStmts m), .case doneS (doneStmts m)] k = k [] := by
    intro k
    unfold recvS
    cases m.hasResults <;> rfl
  have hg : hasDefer (gotStmts m) = false ∧ declared (gotStmts m) = [] := by
    unfold gotStmts
    cases m.returnsError <;> cases m.hasResults <;> exact ⟨rfl, rfl⟩
  have hd : hasDefer (doneStmts m) = false ∧ declared (doneStmts m) = [] := by
    unfold doneStmts
    cases m.returnsError <;> exact ⟨rfl, rfl⟩
  have h0 : ∀ vs, vs.length = m.results.length →
      clauses (d.link m) [.case (recvS m) (gotStmts m), .case doneS (doneStmts m)] 0 (.slice vs) = gotStm d m .skip vs := by
    intro vs hl
    rw [clauses, hg.1, hg.2, if_neg Bool.false_ne_true]
    unfold recvS
    cases hh : m.hasResults
    · have hz := results_nil hh
      have hr : m.returnsError = false := by
        cases h : m.returnsError
        · rfl
        · rw [hre h] at hh; cases hh
      have : vs = [] := by rw [hz] at hl; exact List.length_eq_zero_iff.1 hl
      subst this
      unfold gotStm gotStmts
      rw [hr, hh, returnRes_nil (by simp [Method.rnames, hz])]
      show inScope [] _ = _
      rw [inScope_nil]
      rfl
    · rw [← got_block hn hx hh hl (some [g!"_res"])]
      exact inScope_define g!"_res" (by decide) _ _
  have h1 : clauses (d.link m) [.case (recvS m) (gotStmts m), .case doneS (doneStmts m)] 1 .nil = Fallback.cancelled m := by
    rw [clauses, clauses, hd.1, hd.2, if_neg Bool.false_ne_true]
    show inScope [] (Stm.seq Stm.skip (den _ _ (some []) _)) = _
    rw [inScope_nil, Stm.skip_seq, den_done]
    all_goals intros; rename_i h; cases h
  unfold awaitS
  rw [stm, hcomms]
  simp only [hsel, hsent]
  congr 1
  funext ctx
  congr 1
  funext r
  cases r with
  | none =>
    show Stm.seq _ k = _
    rw [h1, cancelled_seq]
  | some vs =>
    unfold Fallback.typed
    by_cases hl : vs.length = m.results.length
    · simp only [if_pos hl]
      rw [h0 vs hl, gotStm_seq]
    · simp only [if_neg hl]

theorem await_loop (hn : m.rnames.Nodup) (hx : g!"_res" ∉ m.rnames) (hre : m.returnsError = true → m.hasResults = true) :
    ∀ n, loopN (fun k => k true) .skip (inScope (declared [awaitS m]) (den (d.link m) [awaitS m] (some []) .skip)) n = d.loop m n
  | 0 => rfl
  | n + 1 => by
    rw [loopN, await_loop hn hx hre n, Fallback.loop, Stm.skip_seq]
    show Stm.seq (inScope [] (stm (d.link m) (awaitS m) (some []) .skip)) _ = _
    rw [inScope_nil, stm_await hn hx hre, Stm.seq_get]
    congr 1
    funext ctx
    rw [Stm.seq_op]
    congr 1
    funext r
    cases r with
    | none => exact cancelled_seq _
    | some vs =>
      show Stm.seq (Fallback.typed m (gotStm d m .skip) vs) _ = _
      unfold Fallback.typed
      by_cases hl : vs.length = m.results.length
      · simp only [if_pos hl]
        rw [gotStm_seq]
        rfl
      · simp only [if_neg hl]
        rfl

/-- After the launcher was started. -/
theorem den_await (hn : m.rnames.Nodup) (hx : g!"_res" ∉ m.rnames) (hre : m.returnsError = true → m.hasResults = true)
    (hs : m.returnsError = true → m.acceptsContext = true) :
    den (d.link m) (awaitStmts m) none .skip =
      if m.acceptsContext then d.loop m (d.impls.length + 1)
      else .op .recv (Fallback.typed m fun vs =>
        if m.hasResults then .seq (.declare g!"_res" (.slice vs)) (Fallback.returnRes m vs) else Fallback.returnRes m vs) := by
  unfold awaitStmts
  cases hc : m.acceptsContext
  · have hr : m.returnsError = false := by
      cases h : m.returnsError
      · rfl
      · rw [hs h] at hc; cases hc
    simp only [hr, cond_false, Bool.false_eq_true, if_false, gotStmts, recvS]
    have hrecv : (d.link m).recvFrom [g!"_ch"] = some fun k => .op .recv (Fallback.typed m fun vs => k (.slice vs)) := rfl
    cases hh : m.hasResults
    · have hz := results_nil hh
      show Stm.op .recv (Fallback.typed m fun vs => Stm.ret) = _
      congr 1
      funext vs
      unfold Fallback.typed
      by_cases hl : vs.length = m.results.length
      · have : vs = [] := by rw [hz] at hl; exact List.length_eq_zero_iff.1 hl
        subst this
        simp only [if_pos hl, Bool.false_eq_true, if_false]
        rw [returnRes_nil (by simp [Method.rnames, hz])]
      · simp only [if_neg hl]
    · show Stm.op .recv (Fallback.typed m fun vs => Stm.seq (defineAll none [g!"_res"] [.slice vs])
        (stm (d.link m) (.ret [.many (resExprs m.results)]) none .skip)) = _
      congr 1
      funext vs
      unfold Fallback.typed
      by_cases hl : vs.length = m.results.length
      · simp only [if_pos hl, if_true]
        rw [defineAll_one _ (by decide), stm_return, declare_fields, structOf_results hn hl]
        rfl
      · simp only [if_neg hl]
  · simp only [cond_true, if_true]
    show stm (d.link m) (.forever [awaitS m]) none .skip = _
    rw [stm, if_neg (by simp [hasDefer, awaitS, Stmt.isDefer]), Stm.seq_next]
    exact await_loop hn hx hre _

/-- `ctx, _cancelFunc := context.WithCancel(ctx)` -/
theorem define_cancel (k : Stm) :
    (Stm.get g!"ctx" fun c => .lib2 g!"context.WithCancel" [c] fun ctx f => .seq (defineAll none [g!"ctx", g!"_cancelFunc"] [ctx, f]) k) =
    .get g!"ctx" fun c => .lib2 g!"context.WithCancel" [c] fun ctx f => .seq (.declare g!"_cancelFunc" f) (.seq (.assign g!"ctx" ctx) k) := by
  funext env
  cases hc : env g!"ctx" with
  | none => simp [Stm.get, hc]
  | some c =>
    rw [Stm.get_apply hc, Stm.get_apply hc]
    refine Stm.lib2_congr fun ctx f => ?_
    have hcomm := Stm.set_comm (x := g!"ctx") (y := g!"_cancelFunc") (by decide) env ctx f
    cases hs : env g!"_cancelFunc" <;>
      simp [Stm.seq, defineAll, Block.has, Stm.declare, Stm.assign, bindAll, hc, hs, Env.set, Stm.stuck]
    exact congrArg k hcomm

/-- What a method does, unless it has a parameter or result `_res`. -/
theorem tmFallback_den (type : Str) (hn : m.rnames.Nodup) (hx : g!"_res" ∉ m.rnames) (hre : m.returnsError = true → m.hasResults = true)
    (hs : m.returnsError = true → m.acceptsContext = true) :
    Stm.global g!"_res" (denBody (d.link m) (fallbackStmts type m)) = d.body m := by
  have hgo : ∀ K : Stm, stm (d.link m) (.go (.call (.fn [] .none (launcherStmts type m)) [] false)) none K = .seq Fallback.start K := fun K => rfl
  have hb : (m.returnsError && !m.acceptsContext) = false := by
    cases hr : m.returnsError
    · rfl
    · rw [hs hr]; rfl
  have hawait := den_await (d := d) hn hx hre hs
  unfold denBody fallbackStmts Fallback.body Fallback.work
  rw [hb, if_neg Bool.false_ne_true, den_append, den_append, den_append, den_append, den_cons _ (.go _), hgo, hawait]
  generalize d.loop m (d.impls.length + 1) = loop
  congr 1
  cases m.returnsError <;> cases m.acceptsContext
  all_goals go_simp [Fallback.link, makeFn, lenFn, countE, Fallback.lenOf, numeral, zeroOf]
  all_goals rw [define_cancel]

end Gowrap.Tmpl

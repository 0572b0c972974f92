import Verif.Model.Links
import Verif.Proofs.TmplSound
import Verif.Proofs.ControlTrees
/-!
# Lemmas about the meaning of generated code
-/

namespace Gowrap.Stm

open Gowrap

theorem seq_next (a : Stm) : seq a skip = a := by
  funext env
  show (a env).bind _ = _
  have : ∀ t : Tree (Env × Flow), t.bind (fun r => match r.2 with
      | .next => skip r.1
      | fl => .ret (r.1, fl)) = t := by
    intro t
    induction t with
    | ret r =>
      obtain ⟨e, fl⟩ := r
      cases fl <;> rfl
    | vis op k ih => exact Tree.vis_congr ih
  exact this _

theorem skip_seq (a : Stm) : seq skip a = a := rfl

theorem seq_assoc (a b c : Stm) : seq (seq a b) c = seq a (seq b c) := by
  funext env
  show ((a env).bind _).bind _ = (a env).bind _
  rw [Tree.bind_assoc]
  congr 1
  funext r
  obtain ⟨e, fl⟩ := r
  cases fl <;> rfl

@[simp] theorem ret_seq (a : Stm) : seq ret a = ret := rfl
@[simp] theorem stuck_seq (a : Stm) : seq stuck a = stuck := rfl

theorem seq_get (x : Str) (k : Val → Stm) (a : Stm) : seq (get x k) a = get x fun v => seq (k v) a := by
  funext env
  simp only [seq, get]
  cases env x <;> rfl

theorem seq_getAll (x : List Str) (k : List Val → Stm) (a : Stm) : seq (getAll x k) a = getAll x fun v => seq (k v) a := by
  funext env
  simp only [seq, getAll]
  cases env.all x <;> rfl

theorem seq_global (x : Str) (k a : Stm) : seq (global x k) a = global x (seq k a) := by
  funext env
  simp only [seq, global]
  cases env x <;> rfl

theorem seq_op (o : Op) (k : o.Resp → Stm) (a : Stm) : seq (op o k) a = op o fun r => seq (k r) a := rfl

theorem seq_orPanic {α : Type} (k : α → Stm) (r : Except Val α) (a : Stm) :
    seq (orPanic k r) a = orPanic (fun v => seq (k v) a) r := by
  cases r <;> rfl

theorem seq_lib (fn : Str) (args : List Val) (n : Nat) (k : List Val → Stm) (a : Stm) :
    seq (lib fn args n k) a = lib fn args n fun vs => seq (k vs) a := by
  unfold lib
  rw [seq_op]
  simp only [seq_orPanic]

theorem seq_lib1 (fn : Str) (args : List Val) (k : Val → Stm) (a : Stm) :
    seq (lib1 fn args k) a = lib1 fn args fun v => seq (k v) a := by
  unfold lib1
  rw [seq_op]
  simp only [seq_orPanic]

theorem seq_lib2 (fn : Str) (args : List Val) (k : Val → Val → Stm) (a : Stm) :
    seq (lib2 fn args k) a = lib2 fn args fun v w => seq (k v w) a := by
  unfold lib2
  rw [seq_op]
  simp only [seq_orPanic]

theorem seq_lib0 (fn : Str) (args : List Val) (a : Stm) : seq (lib0 fn args) a = lib fn args 0 fun _ => a := by
  unfold lib0
  rw [seq_lib]
  rfl

theorem seq_ite (b : Bool) (x y a : Stm) : seq (ite b x y) a = ite b (seq x a) (seq y a) := by
  cases b <;> rfl

theorem ite_not (b : Bool) (x y : Stm) : ite (!b) x y = ite b y x := by cases b <;> rfl

theorem lib_one (fn : Str) (args : List Val) (k : List Val → Stm) :
    lib fn args 1 k = lib1 fn args fun v => k [v] := by
  unfold lib lib1
  congr 1
  funext r
  cases r with
  | error v => rfl
  | ok vs =>
    obtain ⟨l, hl⟩ := vs
    match l, hl with
    | [a], _ => rfl

theorem lib_two (fn : Str) (args : List Val) (k : List Val → Stm) :
    lib fn args 2 k = lib2 fn args fun v w => k [v, w] := by
  unfold lib lib2
  congr 1
  funext r
  cases r with
  | error v => rfl
  | ok vs =>
    obtain ⟨l, hl⟩ := vs
    match l, hl with
    | [a, b], _ => rfl

theorem global_twice (x : Str) (k : Stm) : global x (global x k) = global x k := by
  funext env
  simp only [global]
  cases h : env x <;> rfl

theorem declare_get (x : Str) (v : Val) (k : Val → Stm) :
    seq (declare x v) (get x k) = seq (declare x v) (k v) := by
  funext env
  simp only [seq, declare]
  cases h : env x with
  | some w => rfl
  | none => simp [get, Env.set]

theorem getAll_cons (x : Str) (xs : List Str) (k : List Val → Stm) :
    getAll (x :: xs) k = get x fun v => getAll xs fun vs => k (v :: vs) := by
  funext env
  simp only [getAll, get, Env.all]
  cases env x with
  | none => rfl
  | some v => cases h : env.all xs <;> simp [getAll, h]

theorem getAll_nil (k : List Val → Stm) : getAll [] k = k [] := rfl

theorem assignAll_one (x : Str) (v : Val) : assignAll [x] [v] = assign x v := by
  funext env
  simp only [assignAll, assign, Env.all]
  cases env x <;> rfl

theorem orPanic_eq {α : Type} (k : α → Stm) (r : Except Val α) (env : Env) : orPanic k r env = match r with
    | .ok a => k a env
    | .error v => .ret (env, .panic v) := by cases r <;> rfl

theorem ite_eq (b : Bool) (s t : Stm) (env : Env) : ite b s t env = if b then s env else t env := by cases b <;> rfl

theorem lib_congr {fn : Str} {args : List Val} {n : Nat} {k k' : List Val → Stm} {env : Env} (h : ∀ vs, k vs env = k' vs env) :
    lib fn args n k env = lib fn args n k' env := by
  refine Tree.vis_congr fun r => ?_
  cases r with
  | ok a => exact h a.1
  | error v => rfl

theorem lib1_congr {fn : Str} {args : List Val} {k k' : Val → Stm} {env : Env} (h : ∀ v, k v env = k' v env) :
    lib1 fn args k env = lib1 fn args k' env := by
  refine Tree.vis_congr fun r => ?_
  cases r with
  | ok a => exact h _
  | error v => rfl

theorem lib2_congr {fn : Str} {args : List Val} {k k' : Val → Val → Stm} {env : Env} (h : ∀ v w, k v w env = k' v w env) :
    lib2 fn args k env = lib2 fn args k' env := by
  refine Tree.vis_congr fun r => ?_
  cases r with
  | ok a => exact h _ _
  | error v => rfl

theorem leave_self (env : Env) (xs : List Str) : env.leave env xs = env := by
  funext y
  unfold Env.leave
  split <;> rfl

theorem setAll_leave (x : Str) (v : Val) (env : Env) : (env.setAll [x] [v]).leave env [x] = env := Env.leave_set env x v

theorem block_get_same (x : Str) (v : Val) (k : Val → Stm) : block [x] [v] (get x k) = block [x] [v] (k v) := by
  funext env
  simp [block, Env.setAll, get, Env.set]

theorem block_get (x y : Str) (h : y ≠ x) (v : Val) (k : Val → Stm) :
    block [x] [v] (get y k) = get y fun w => block [x] [v] (k w) := by
  funext env
  simp only [block, Env.setAll, get, Env.set, if_neg h]
  cases env y with
  | none =>
    show Tree.ret ((env.set x v).leave env [x], Flow.stuck) = _
    rw [Env.leave_set]
    rfl
  | some w => rfl

theorem block_ite (xs : List Str) (vs : List Val) (b : Bool) (s t : Stm) :
    block xs vs (ite b s t) = ite b (block xs vs s) (block xs vs t) := by cases b <;> rfl

end Gowrap.Stm

namespace Gowrap.Go

open Gowrap Tmpl

/-- `_d.f` -/
abbrev fieldE (f : Str) : Go.Expr := .sel (.id g!"_d") f

/-- `a.f` -/
abbrev dotE (a f : Str) : Go.Expr := .sel (.id a) f

/-- `f(args)` -/
abbrev callE (f : Go.Expr) (args : List Go.Expr) : Go.Expr := .call f args false

/-- `x != nil` -/
abbrev notNilE (x : Go.Expr) : Go.Expr := .bin g!"!=" x (.id g!"nil")

/-- `defer func() { body }()` -/
abbrev deferS (body : List Stmt) : Stmt := .defer (.call (.fn [] .none body) [] false)

/-- The names of parameters or results. -/
def idExprs (ps : List Param) : List Go.Expr := ps.map fun p => .id p.name

/-- `[]interface{}{es}` -/
def anyList (es : List Go.Expr) : Go.Expr := .lit (.slice (.iface [])) es false

/-- No parameter or result hides `nil`, `true` or `false`. -/
def Plain (names : List Str) : Prop := ∀ x ∈ names, x ≠ g!"nil" ∧ x ≠ g!"true" ∧ x ≠ g!"false"

theorem Plain.cons {x : Str} {xs : List Str} (h : Plain (x :: xs)) :
    (x ≠ g!"nil" ∧ x ≠ g!"true" ∧ x ≠ g!"false") ∧ Plain xs :=
  ⟨h x (.head _), fun y hy => h y (.tail _ hy)⟩

variable {L : Link}

theorem ev_id {x : Str} (h : x ≠ g!"nil" ∧ x ≠ g!"true" ∧ x ≠ g!"false") (n : Nat) (k : List Val → Stm) :
    ev L (.id x) n k = .get x fun v => k [v] := by
  simp only [ev, if_neg h.1, if_neg h.2.1, if_neg h.2.2]

theorem evs_ids : ∀ (ps : List Param), Plain (ps.map (·.name)) → ∀ k, evs L (ps.map fun p => .id p.name) k = .getAll (ps.map (·.name)) k
  | [], _, k => rfl
  | p :: ps, h, k => by
    simp only [List.map_cons, evs]
    rw [ev_id h.cons.1, Stm.getAll_cons]
    congr 1
    funext v
    exact evs_ids ps h.cons.2 _

theorem ev_arg (p : Param) (n : Nat) (k : List Val → Stm) (h : p.name ≠ g!"nil" ∧ p.name ≠ g!"true" ∧ p.name ≠ g!"false") :
    ev L (argExpr p) n k = .get p.name fun v => k [v] := by
  unfold argExpr
  split
  · rw [ev, ev_id h]
  · exact ev_id h n k

theorem evs_args : ∀ (ps : List Param), Plain (ps.map (·.name)) → ∀ k, evs L (ps.map argExpr) k = .getAll (ps.map (·.name)) k
  | [], _, k => rfl
  | p :: ps, h, k => by
    simp only [List.map_cons, evs]
    rw [ev_arg _ _ _ h.cons.1, Stm.getAll_cons]
    congr 1
    funext v
    exact evs_args ps h.cons.2 _

theorem evs_pairs : ∀ (ps : List Param), Plain (ps.map (·.name)) → ∀ k,
    evs L (ps.map fun p => .pair (.str p.name) (.id p.name)) k = .getAll (ps.map (·.name)) k
  | [], _, k => rfl
  | p :: ps, h, k => by
    simp only [List.map_cons, evs]
    rw [ev, ev_id h.cons.1, Stm.getAll_cons]
    congr 1
    funext v
    exact evs_pairs ps h.cons.2 _

theorem evs_params {m : Method} (h : Plain m.pnames) (k : List Val → Stm) : evs L (idExprs m.params) k = .getAll m.pnames k :=
  evs_ids _ h k

theorem evs_results {m : Method} (h : Plain m.rnames) (k : List Val → Stm) : evs L (idExprs m.results) k = .getAll m.rnames k :=
  evs_ids _ h k

theorem keyList_pairs : ∀ (ps : List Param), keyList (ps.map fun p => .pair (.str p.name) (.id p.name)) = ps.map (·.name)
  | [] => rfl
  | p :: ps => congrArg _ (keyList_pairs ps)

theorem ev_map (ps : List Param) (h : Plain (ps.map (·.name))) (n : Nat) (k : List Val → Stm) :
    ev L (mapExpr ps) n k = .getAll (ps.map (·.name)) fun vs => k [Method.mapOf (ps.map (·.name)) vs] := by
  unfold mapExpr mapType
  rw [ev]
  simp only [evs_pairs ps h, keyList_pairs]
  rfl

theorem ev_paramsMap {m : Method} (h : Plain m.pnames) (n : Nat) (k : List Val → Stm) :
    ev L (mapExpr m.params) n k = .getAll m.pnames fun vs => k [Method.mapOf m.pnames vs] := ev_map _ h n k

theorem ev_resultsMap {m : Method} (h : Plain m.rnames) (n : Nat) (k : List Val → Stm) :
    ev L (mapExpr m.results) n k = .getAll m.rnames fun vs => k [Method.mapOf m.rnames vs] := ev_map _ h n k

theorem spreads_many (es : List Expr) : spreads [.many es] = false := rfl

/-- `{{$method.Pass "recv."}}` -/
def passStmts (recv : Expr) (m : Method) : List Stmt :=
  bif m.hasResults then [.ret [.call (.sel recv m.name) [.many (m.params.map argExpr)] false]]
  else [.expr (.call (.sel recv m.name) [.many (m.params.map argExpr)] false), .ret []]

/-- `recv.{{$method.Call}}` -/
def callExpr (recv : Expr) (m : Method) : Expr := .call (.sel recv m.name) [.many (m.params.map argExpr)] false

theorem ev_call {recv : Expr} {m : Method} {base : (Val → Stm) → Stm} (hi : L.impl recv = true)
    (hr : ∀ k, ev L recv 1 k = base fun v => k [v]) (hp : Plain m.pnames) (n : Nat) (k : List Val → Stm) :
    ev L (callExpr recv m) n k = base fun v => .getAll m.pnames fun vs => implCall v m.name vs n k := by
  unfold callExpr
  rw [ev, evFn, if_pos hi, hr]
  simp only [evs, ev, evs_args _ hp, List.append_nil]
  rfl

theorem den_pass {recv : Expr} {m : Method} {base : (Val → Stm) → Stm} (hi : L.impl recv = true)
    (hr : ∀ k, ev L recv 1 k = base fun v => k [v]) (hp : Plain m.pnames) (hres : L.results = m.rnames) (b : Block) (k : Stm) :
    den L (passStmts recv m) b k = base fun v => m.passTo v := by
  unfold passStmts Method.passTo Method.assignCall
  have hn : m.rnames.length = m.results.length := List.length_map ..
  cases hh : m.hasResults
  · have h0 : m.results = [] := by
      unfold Method.hasResults at hh
      cases h : m.results with
      | nil => rfl
      | cons a r => rw [h] at hh; simp at hh
    have hr0 : m.rnames = [] := by simp [Method.rnames, h0]
    show ev L (callExpr recv m) 0 _ = _
    rw [ev_call hi hr hp]
    congr 1
    funext v
    congr 1
    funext vs
    rw [h0]
    simp only [implCall]
    show Stm.op _ _ = Stm.op _ _
    congr 1
    funext r
    cases r with
    | error v => rfl
    | ok ws =>
      obtain ⟨l, hl⟩ := ws
      match l, hl with
      | [], _ => simp only [hr0]; rfl
  · show ev L (callExpr recv m) L.results.length _ = _
    rw [ev_call hi hr hp, hres, hn]
    rfl

theorem den_assignCall {recv : Expr} {m : Method} {base : (Val → Stm) → Stm} (hi : L.impl recv = true)
    (hr : ∀ k, ev L recv 1 k = base fun v => k [v]) (hp : Plain m.pnames) (b : Block) (k : Stm) :
    stm L (.assign [.many (idExprs m.results)] [callExpr recv m]) b k = base fun v => m.assignCall v k := by
  have hl : ∀ ps : List Param, nameList (ps.map fun p => .id p.name) = ps.map (·.name) := by
    intro ps
    induction ps with
    | nil => rfl
    | cons p ps ih => exact congrArg _ ih
  have hl' : leftNames [.many (idExprs m.results)] = m.rnames := by
    simp [leftNames, idExprs, hl, Method.rnames]
  have hc : leftCount [.many (idExprs m.results)] = m.results.length := by
    simp [leftCount, idExprs]
  rw [stm, hc]
  show ev L (callExpr recv m) _ _ = _
  rw [ev_call hi hr hp]
  unfold Method.assignCall
  simp only [assignTo, hl']
  rfl

theorem den_append (L : Link) : ∀ (xs ys : List Stmt) (k : Stm), den L (xs ++ ys) none k = den L xs none (den L ys none k)
  | [], _, _ => rfl
  | x :: xs, ys, k => by
    show stm L x none (den L (xs ++ ys) none k) = stm L x none (den L xs none _)
    rw [den_append L xs ys k]

theorem den_cons (L : Link) (s : Stmt) (r : List Stmt) (k : Stm) : den L (s :: r) none k = stm L s none (den L r none k) := rfl

theorem stm_many (L : Link) (ss : List Stmt) (b : Block) (k : Stm) : stm L (.many ss) b k = den L ss b k := rfl

theorem den_defer (L : Link) (body : List Stmt) (rest : List Stmt) (k : Stm) (h : hasDefer body = false) :
    den L (deferS body :: rest) none k =
      .deferring (inScope (declared body) (den L body (some []) .skip)) (den L rest none k) := by
  rw [den, stm]
  simp [h, Stmt.declares]

theorem inScope_nil (a : Stm) : inScope [] a = a := by
  funext env
  have : ∀ t : Tree (Env × Flow), (t.bind fun r => .ret (r.1.leave env [], r.2)) = t := by
    intro t
    induction t with
    | ret r =>
      obtain ⟨e, fl⟩ := r
      show Tree.ret _ = _
      congr 2
    | vis op k ih => exact Tree.vis_congr ih
  exact this _

theorem defineAll_one (x : Str) (hx : x ≠ g!"_") (v : Val) : defineAll none [x] [v] = .declare x v := by
  funext env
  simp only [defineAll, Stm.declare, List.all_cons, List.all_nil, decide_eq_false hx, Bool.false_or, Block.has, Bool.and_true,
    bindAll, if_neg hx]
  cases env x <;> rfl

/-- A block that starts with the declaration of a variable. -/
theorem inScope_define (x : Str) (hx : x ≠ g!"_") (v : Val) (a : Stm) :
    inScope [x] (.seq (defineAll (some []) [x] [v]) a) = .block [x] [v] a := by
  funext env
  simp [inScope, Stm.block, Stm.seq, defineAll, hx, Block.has, bindAll, Env.setAll]

theorem inScope_stuck (xs : List Str) : inScope xs .stuck = .stuck := by
  funext env
  show Tree.ret (env.leave env xs, _) = _
  rw [Stm.leave_self]
  rfl

theorem inScope_get (xs : List Str) (x : Str) (k : Val → Stm) : inScope xs (.get x k) = .get x fun v => inScope xs (k v) := by
  funext env
  simp only [inScope, Stm.get]
  cases env x with
  | none => exact congrFun (inScope_stuck xs) env
  | some v => rfl

theorem inScope_getAll (xs : List Str) (x : List Str) (k : List Val → Stm) :
    inScope xs (.getAll x k) = .getAll x fun v => inScope xs (k v) := by
  funext env
  simp only [inScope, Stm.getAll]
  cases env.all x with
  | none => exact congrFun (inScope_stuck xs) env
  | some v => rfl

theorem inScope_op (xs : List Str) (o : Op) (k : o.Resp → Stm) : inScope xs (.op o k) = .op o fun r => inScope xs (k r) := rfl

theorem inScope_global (xs : List Str) (x : Str) (k : Stm) : inScope xs (.global x k) = .global x (inScope xs k) := by
  funext env
  simp only [inScope, Stm.global]
  cases env x with
  | some v => exact congrFun (inScope_stuck xs) env
  | none => rfl

/-- `x, ctx := fn(ctx)`: the variable `ctx` exists. -/
theorem define_two (x fn : Str) (hx : x ≠ g!"_" ∧ x ≠ g!"ctx") (args : Val → List Val) (k : Stm) :
    (Stm.get g!"ctx" fun c => .lib2 fn (args c) fun span ctx => .seq (defineAll none [x, g!"ctx"] [span, ctx]) k) =
    .get g!"ctx" fun c => .lib2 fn (args c) fun span ctx => .seq (.declare x span) (.seq (.assign g!"ctx" ctx) k) := by
  funext env
  cases hc : env g!"ctx" with
  | none => simp [Stm.get, hc]
  | some c =>
    rw [Stm.get_apply hc, Stm.get_apply hc]
    refine Stm.lib2_congr fun span ctx => ?_
    cases hs : env x <;>
      simp [Stm.seq, defineAll, Block.has, Stm.declare, Stm.assign, bindAll, hc, hs, Env.set, Stm.stuck, hx, Ne.symm hx.2]

/-- Computes the meaning of statements. -/
macro "go_simp" "[" ls:Lean.Parser.Tactic.simpLemma,* "]" : tactic =>
  `(tactic| simp [den, stm, evRight, anyList, ev, evs, evFn, isPath, Expr.path, Expr.pathTo, table, method, func, value, same, timeNow,
      action, Link.guard, Meaning.run, flatArgs, spreads, leftNames, leftCount, Stmt.declares, declared, hasDefer, Stmt.isDefer, defineAll_one, inScope_define,
      inScope_nil, inScope_get, inScope_getAll, inScope_global, Stm.block_get_same, Stm.block_get, Stm.block_ite, Stm.lib0, withBool, binOp, eqVal, assignTo, Stm.declare_get, Stm.seq_assoc, Stm.seq_get, Stm.seq_getAll, Stm.seq_global, Stm.seq_op,
      Stm.seq_orPanic, Stm.seq_lib, Stm.seq_lib1, Stm.seq_lib2, Stm.seq_ite, Stm.ite_not, Stm.lib_one, Stm.lib_two, Stm.seq_next,
      Stm.skip_seq, Stm.assignAll_one, Stm.getAll_nil, $ls,*])

/-- Computes with known variables. -/
macro "env_simp" "[" ls:Lean.Parser.Tactic.simpLemma,* "]" : tactic =>
  `(tactic| simp [Stm.get, Stm.getAll, Stm.global, Stm.lib, Stm.lib1, Stm.lib2, Stm.op, Stm.orPanic_eq, Stm.ite_eq, Stm.skip, Stm.ret, Stm.stuck, $ls,*])

end Gowrap.Go

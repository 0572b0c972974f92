import Verif.Proofs.GoDen
import Verif.Proofs.TmCircuitbreaker
/-!
# The meaning of the code generated by templates/circuitbreaker
-/

namespace Gowrap.Tmpl

open Gowrap Go

set_option maxRecDepth 100000

/-- `_d._lock.f()` -/
abbrev lockE (f : Str) : Go.Expr := callE (.sel (fieldE g!"_lock") f) []

def resetStmts : List Stmt :=
  [.assign [fieldE g!"_consecutiveErrors"] [.num g!"0"], .assign [fieldE g!"_closesAt"] [.id g!"nil"], .ret []]

def openStmts (dec : Str) : List Stmt :=
  [.expr (lockE g!"RUnlock"), .assign [.id g!"err"] [callE (dotE g!"errors" g!"New") [.str (dec ++ g!": circuit is open")]], .ret []]

/-- `if errors.Is(err, _e) { … }` -/
def ignoreS : Stmt := .cond (callE (dotE g!"errors" g!"Is") [.id g!"err", .id g!"_e"]) resetStmts

def countStmts : List Stmt :=
  [.inc (fieldE g!"_consecutiveErrors"),
    .cond (.bin g!">=" (fieldE g!"_consecutiveErrors") (fieldE g!"_maxConsecutiveErrors"))
      [.define [.id g!"closesAt"] [callE (.sel (callE (dotE g!"time" g!"Now") []) g!"Add") [fieldE g!"_openInterval"]],
        .assign [fieldE g!"_closesAt"] [.un g!"&" (.id g!"closesAt")]],
    .ret []]

def attemptStmts (iface : Str) (m : Method) : List Stmt :=
  .assign [.many (idExprs m.results)] [callExpr (fieldE iface) m] ::
  .expr (lockE g!"Lock") :: .defer (lockE g!"Unlock") :: .cond (.bin g!"==" (.id g!"err") (.id g!"nil")) resetStmts ::
  .range [.id g!"_", .id g!"_e"] (fieldE g!"_ignoreErrors") [ignoreS] :: countStmts

def breakerStmts (dec iface : Str) (m : Method) : List Stmt :=
  .expr (lockE g!"RLock") ::
  .cond (.bin g!"&&" (notNilE (fieldE g!"_closesAt")) (callE (.sel (fieldE g!"_closesAt") g!"After") [callE (dotE g!"time" g!"Now") []]))
    (openStmts dec) ::
  .expr (lockE g!"RUnlock") :: attemptStmts iface m

theorem tmCircuitbreaker_method (u : Uni) (d : Inputs) (m : Method) (h : m.returnsError = true → m.results ≠ []) :
    tmCircuitbreaker.methodDecls u d m = bif m.returnsError then
      [.method g!"_d" (.ptr (.name (tmCircuitbreaker.names u d).dec)) m.name (paramDecls m.params) (paramDecls m.results)
        (breakerStmts (tmCircuitbreaker.names u d).dec d.name m)] else [] := by
  obtain ⟨doc, cm, nm, ps, rs, re, ac⟩ := m
  cases re
  · cases ps <;> cases rs <;> cases ac <;> krfl
  · cases rs with
    | nil => exact absurd rfl (h rfl)
    | cons p rs => cases ps <;> cases ac <;> krfl

/-- The names of the fields are distinct. -/
def Breaker.Fields (d : Breaker) : Prop :=
  d.iface ∉ [g!"_lock", g!"_maxConsecutiveErrors", g!"_consecutiveErrors", g!"_openInterval", g!"_closesAt", g!"_ignoreErrors"]

theorem inScope_ops (xs : List Str) (o : Op) (k : o.Resp → Stm) : inScope xs (.op o k) = .op o fun r => inScope xs (k r) := rfl

theorem block_op (xs : List Str) (vs : List Val) (o : Op) (k : o.Resp → Stm) : Stm.block xs vs (.op o k) = .op o fun r => .block xs vs (k r) := rfl

theorem block_skip (x : Str) (v : Val) : Stm.block [x] [v] .skip = .skip := by
  funext env
  show Tree.ret ((env.setAll [x] [v]).leave env [x], Flow.next) = _
  rw [Stm.setAll_leave]
  rfl

/-- Facts for the lookup of fields. -/
theorem Breaker.Fields.ne {d : Breaker} (h : d.Fields) :
    (d.iface ≠ g!"_lock" ∧ d.iface ≠ g!"_maxConsecutiveErrors" ∧ d.iface ≠ g!"_consecutiveErrors" ∧ d.iface ≠ g!"_openInterval" ∧
      d.iface ≠ g!"_closesAt" ∧ d.iface ≠ g!"_ignoreErrors") ∧
    (g!"_lock" ≠ d.iface ∧ g!"_maxConsecutiveErrors" ≠ d.iface ∧ g!"_consecutiveErrors" ≠ d.iface ∧ g!"_openInterval" ≠ d.iface ∧
      g!"_closesAt" ≠ d.iface ∧ g!"_ignoreErrors" ≠ d.iface) := by
  simp only [Breaker.Fields, List.mem_cons, List.not_mem_nil, or_false, not_or] at h
  exact ⟨h, Ne.symm h.1, Ne.symm h.2.1, Ne.symm h.2.2.1, Ne.symm h.2.2.2.1, Ne.symm h.2.2.2.2.1, Ne.symm h.2.2.2.2.2⟩

variable {d : Breaker} (m : Method) (hf : d.Fields)

theorem breaker_reset (b : Block) : den (d.link m) resetStmts b .skip = breakerReset := by
  unfold resetStmts breakerReset
  go_simp [Breaker.link, numeral]

include hf

theorem breaker_count (b : Block) : den (d.link m) countStmts b .skip = d.count := by
  unfold countStmts Breaker.count
  go_simp [Breaker.link, numeral, inScope_ops, block_op, block_skip, hf.ne.1, hf.ne.2]
  congr 1
  funext n
  congr 1
  funext _
  congr 1
  funext n
  by_cases h : d.maxErrors ≤ n
  · rw [if_pos h, decide_eq_true h]
    rfl
  · rw [if_neg h, decide_eq_false h]
    rfl

omit hf in
theorem den_ignore : den (d.link m) [ignoreS] (some []) .skip = .global g!"errors" (.get g!"err" fun err => .get g!"_e" fun e =>
    .op (.errorsIs err e) (.orPanic fun same => .ite same breakerReset .skip)) := by
  unfold ignoreS resetStmts breakerReset
  go_simp [Breaker.link, numeral]

omit hf in
theorem breaker_ignore (v : Val) : (inScope [g!"_", g!"_e"] fun env =>
    inScope (declared [ignoreS]) (den (d.link m) [ignoreS] (some []) .skip) (bindAll env [g!"_", g!"_e"] [.nil, v])) =
    .global g!"errors" (.get g!"err" fun err => .op (.errorsIs err v) (.orPanic fun same => .ite same breakerReset .skip)) := by
  rw [den_ignore]
  funext env
  have hl : ∀ env' : Env, (env'.set g!"_e" v).leave env' [g!"_", g!"_e"] = env' := fun env' => by
    funext y
    by_cases h1 : y = g!"_" <;> by_cases h2 : y = g!"_e" <;> simp [Env.leave, Env.set, h1, h2]
  rw [show declared [ignoreS] = [] from rfl, inScope_nil]
  unfold inScope
  simp only [show bindAll env [g!"_", g!"_e"] [.nil, v] = env.set g!"_e" v from rfl, Stm.global]
  cases h1 : env g!"errors" <;> cases h2 : env g!"err" <;> simp [Stm.get, Env.set, h1, h2, hl, Stm.stuck, Stm.op]
  funext r
  cases r with
  | error w => simp [Stm.orPanic_eq, hl]
  | ok b => cases b <;> simp [Stm.orPanic_eq, Stm.ite_eq, hl, breakerReset, Stm.op, Stm.ret, Stm.skip]

theorem breaker_loop (env : Env) (err : Val) (he : env g!"err" = some err) : ∀ vs : List Val,
    (Stm.seq (rangeN (fun v => inScope [g!"_", g!"_e"] fun env =>
    inScope (declared [ignoreS]) (den (d.link m) [ignoreS] (some []) .skip) (bindAll env [g!"_", g!"_e"] [.nil, v])) vs)
    (den (d.link m) countStmts none .skip)) env = d.ignored err vs env := by
  simp only [breaker_ignore, breaker_count m hf]
  intro vs
  induction vs with
  | nil => rfl
  | cons v vs ih =>
    rw [rangeN, Breaker.ignored, Stm.seq_assoc, Stm.seq_global]
    simp only [Stm.global]
    cases h1 : env g!"errors" with
    | some _ => rfl
    | none =>
      show Stm.seq (.get _ _) _ env = _
      rw [Stm.seq_get, Stm.get_apply he]
      refine Tree.vis_congr fun r => ?_
      cases r with
      | error v => rfl
      | ok b => cases b with
        | true => rfl
        | false => exact ih

theorem breaker_attempt (hp : Plain m.pnames) : den (d.link m) (attemptStmts d.iface m) none .skip = d.attempt m := by
  unfold attemptStmts Breaker.attempt
  have hi : (d.link m).impl (fieldE d.iface) = true := by go_simp [Breaker.link]
  have hr : ∀ k, ev (d.link m) (fieldE d.iface) 1 k = k [d.base] := fun k => by go_simp [Breaker.link]
  rw [den_cons, den_assignCall (base := value d.base) hi hr hp]
  show m.assignCall d.base _ = _
  congr 1
  rw [den_cons, den_cons, den_cons, den_cons]
  have hk : ∀ k, stm (d.link m) (.cond (.bin g!"==" (.id g!"err") (.id g!"nil")) resetStmts) none
      (stm (d.link m) (.range [.id g!"_", .id g!"_e"] (fieldE g!"_ignoreErrors") [ignoreS]) none k) =
      .get g!"err" fun err => .ite err.isNil breakerReset (.seq (rangeN (fun v => inScope [g!"_", g!"_e"] fun env =>
        inScope (declared [ignoreS]) (den (d.link m) [ignoreS] (some []) .skip) (bindAll env [g!"_", g!"_e"] [.nil, v])) d.ignore) k) := by
    intro k
    have hev : ∀ k, ev (d.link m) (fieldE g!"_ignoreErrors") 1 k = k [.slice d.ignore] := fun k => by
      go_simp [Breaker.link, hf.ne.1, hf.ne.2]
    have h1 : stm (d.link m) (.range [.id g!"_", .id g!"_e"] (fieldE g!"_ignoreErrors") [ignoreS]) none k =
        .seq (rangeN (fun v => inScope [g!"_", g!"_e"] fun env =>
        inScope (declared [ignoreS]) (den (d.link m) [ignoreS] (some []) .skip) (bindAll env [g!"_", g!"_e"] [.nil, v])) d.ignore) k := by
      rw [stm, if_neg (by simp [hasDefer, ignoreS, Stmt.isDefer]), hev]
      rfl
    rw [h1]
    generalize Stm.seq (rangeN _ _) k = k'
    unfold resetStmts breakerReset
    go_simp [Breaker.link, numeral, hf.ne.1, hf.ne.2]
  rw [hk]
  have : (Stm.get g!"err" fun err => .ite err.isNil breakerReset (.seq (rangeN (fun v => inScope [g!"_", g!"_e"] fun env =>
        inScope (declared [ignoreS]) (den (d.link m) [ignoreS] (some []) .skip) (bindAll env [g!"_", g!"_e"] [.nil, v])) d.ignore)
        (den (d.link m) countStmts none .skip))) = .get g!"err" fun err => .ite err.isNil breakerReset (d.ignored err d.ignore) := by
    funext env
    cases he : env g!"err" with
    | none => simp [Stm.get, he]
    | some err =>
      rw [Stm.get_apply he, Stm.get_apply he, Stm.ite_eq, Stm.ite_eq, breaker_loop m hf env err he]
  rw [this]
  go_simp [Breaker.link, hf.ne.1, hf.ne.2]

theorem tmCircuitbreaker_den (hp : Plain m.pnames) : denBody (d.link m) (breakerStmts d.dec d.iface m) = d.body m := by
  unfold denBody breakerStmts Breaker.body openStmts Breaker.reject
  rw [den_cons, den_cons, den_cons, breaker_attempt m hf hp]
  go_simp [Breaker.link, hf.ne.1, hf.ne.2]
  congr 1
  funext _
  congr 1
  funext c
  cases c with
  | none => rfl
  | some t =>
    show Stm.op _ _ = Stm.op _ _
    congr 1
    funext c
    cases c with
    | none => rfl
    | some t =>
      show Stm.global _ (.op _ _) = .global _ (.op _ _)
      congr 1
      congr 1
      funext now
      by_cases h : now < t
      · rw [if_pos h, decide_eq_true h]
        rfl
      · rw [if_neg h, decide_eq_false h]
        rfl

end Gowrap.Tmpl
